import Verif.Proofs.Private
/-!
# Certificates and TLS connections
-/
namespace Verif.Proofs
open Verif Verif.Model Verif.Spec

variable {α : Type} {env : Env}

theorem CertificateAccepted.mono {h : Hist} {id : Nat} (ha : CertificateAccepted h id) (k : Hist) : CertificateAccepted (h ++ k) id := by
  constructor
  · obtain ⟨r, h1, h2⟩ := ha.handshake
    exact ⟨r, h1, List.mem_append_left _ h2⟩
  · obtain ⟨r, h1, h2⟩ := ha.certificate
    exact ⟨r, h1, List.mem_append_left _ h2⟩
  · rcases ha.chain with h | ⟨pre, post, h, h'⟩
    · exact .inl (List.mem_append_left _ h)
    · exact .inr ⟨pre, post ++ k, by rw [h]; simp, h'⟩

theorem AcceptedFirst.snoc {h : Hist} {e : Ev} (ha : AcceptedFirst h) (he : ∀ id, usesTls id e → CertificateAccepted h id) : AcceptedFirst (h ++ [e]) := by
  intro pre e' post id heq hu
  rcases List.eq_nil_or_concat post with rfl | ⟨post', x, rfl⟩
  · have := List.append_inj' heq rfl
    obtain ⟨rfl, h2⟩ := this
    cases h2
    exact he id hu
  · have : h ++ [e] = (pre ++ e' :: post') ++ [x] := by rw [heq]; simp
    have := List.append_inj' this rfl
    exact ha pre e' post' id this.1 hu

theorem AcceptedFirst.append {h k : Hist} (ha : AcceptedFirst h) (hk : ∀ e ∈ k, ∀ id, ¬ usesTls id e) : AcceptedFirst (h ++ k) := by
  induction k generalizing h with
  | nil => simpa using ha
  | cons e k ih =>
    have := ih (AcceptedFirst.snoc ha (e := e) fun id hu => absurd hu (hk e (by simp) id)) fun e he => hk e (by simp [he])
    simpa using this

/-- Events that are no calls do not change what the user enabled. -/
def NoCall : Ev → Prop
  | .call _ => False
  | _ => True

theorem selfSigned_append (h : Hist) {k : Hist} (hk : ∀ e ∈ k, NoCall e) : selfSignedEnabled (h ++ k) = selfSignedEnabled h := by
  unfold selfSignedEnabled
  rw [List.foldl_append]
  induction k generalizing h with
  | nil => rfl
  | cons e k ih =>
    have he := hk e (by simp)
    have := ih h fun e he => hk e (by simp [he])
    rw [List.foldl_cons]
    cases e <;> first | exact this | exact absurd he id

theorem prep_noCall {e : Ev} (h : PrepEv e) : NoCall e := by cases e <;> first | trivial | exact absurd h id
theorem prep_noTls {e : Ev} (h : PrepEv e) (id : Nat) : ¬ usesTls id e := by
  intro hu; cases e <;> first | exact hu | exact h
theorem deaf_prep {e : Ev} (h : DeafEv e) : PrepEv e := by cases e <;> first | trivial | exact absurd h id
theorem closing_prep (c : Client) : ∀ e ∈ closingEvs c, PrepEv e := by
  intro e he
  unfold closingEvs at he
  rcases List.mem_append.mp he with he | he
  · split at he
    · simp at he
    · split at he
      · rw [List.mem_singleton.mp he]; trivial
      · simp at he
  · split at he
    · rw [List.mem_singleton.mp he]; trivial
    · simp at he

/-- The history is fine and the setting is the one of the user. -/
structure Careful (s : St) : Prop where
  kind : s.client.kind ≠ .smtp
  accept : s.client.acceptSelfSigned = selfSignedEnabled s.hist
  hist : AcceptedFirst s.hist

/-- … and the TLS connection, if there is one, was checked. -/
structure Vetted (s : St) : Prop extends Careful s where
  bio : ∀ b, s.client.bio = some b → CertificateAccepted s.hist b.id

theorem Careful.append {s : St} {c : Client} {evs : Hist} {m : List SessionOp} (h : Careful s) (hk : c.kind = s.client.kind)
    (ha : c.acceptSelfSigned = s.client.acceptSelfSigned) (he : ∀ e ∈ evs, PrepEv e) : Careful { s with client := c, hist := s.hist ++ evs, mem := m } where
  kind := by dsimp only; rw [hk]; exact h.kind
  accept := by dsimp only; rw [ha, h.accept, selfSigned_append _ fun e h => prep_noCall (he e h)]
  hist := AcceptedFirst.append h.hist fun e hm => prep_noTls (he e hm)

theorem Prepared.careful {s s' : St} (h : Prepared s s') (hc : Careful s) : Careful s' := by
  obtain ⟨evs, h1, h2⟩ := h.events
  have := hc.append (evs := evs) (m := s'.mem) h.kind h.accept h2
  rw [← h1] at this
  exact this

theorem Vetted.same {s : St} {c : Client} {m : List SessionOp} (h : Vetted s) (hc : SameConn s.client c) : Vetted { s with client := c, mem := m } := by
  unfold SameConn at hc
  rw [hc]
  exact ⟨⟨h.kind, h.accept, h.hist⟩, h.bio⟩

theorem Vetted.snoc {s : St} {e : Ev} (h : Vetted s) (hn : NoCall e) (he : ∀ id, usesTls id e → CertificateAccepted s.hist id) : Vetted (St.snoc s e) where
  kind := h.kind
  accept := by
    show s.client.acceptSelfSigned = selfSignedEnabled (s.hist ++ [e])
    rw [selfSigned_append _ (by simpa using hn)]
    exact h.accept
  hist := AcceptedFirst.snoc h.hist he
  bio := fun b hb => CertificateAccepted.mono (h.bio b hb) _

theorem vetted_guard : GuardInv (fun _ _ => True) Vetted where
  quitOk := trivial
  client := fun _ _ _ hc h => h.same hc
  quiet := fun _ e he h => h.snoc (prep_noCall (deaf_prep he)) fun id hu => absurd hu (prep_noTls (deaf_prep he) id)
  recvRaw := fun _ _ h => h.snoc trivial fun _ hu => nomatch hu
  recvTls := fun _ b _ hb h => h.snoc trivial fun id hu => by rw [← (show b.id = id from hu)]; exact h.bio b hb
  send := by
    intro s k c d r hs h
    refine h.snoc trivial fun id hu => ?_
    cases hs with
    | clear _ _ => exact nomatch hu
    | tls _ _ hb => rw [← (show _ = id from hu)]; exact h.bio _ hb
    | upgrade _ _ _ => exact nomatch hu
  closed := by
    intro s h
    refine ⟨h.toCareful.append (closedClient_kind _) (by unfold closedClient; split <;> rfl) (closing_prep _), fun b hb => ?_⟩
    dsimp only at hb
    rw [closedClient_bio h.kind] at hb
    exact absurd hb (by simp)

/-- A successful negotiation gives a checked connection. -/
theorem negotiate_vetted (s : St) (h : Careful s) (hc : s.client.isConnected = false) :
    wp env startTLSNegotiation (fun code s' => Careful s' ∧ s'.client.isConnected = false ∧ s'.client.kind = s.client.kind ∧ (code = 0 → Vetted s')) (fun _ => Careful) s := by
  refine wp_mono (wp_and (startTLSNegotiation_prep.run s) (startTLSNegotiation_ok s)) ?_ (fun _ _ h' => (h'.1 hc).careful h)
  rintro code s' ⟨h1, h2⟩
  have h1 := h1 hc
  refine ⟨h1.careful h, h1.isConnected, h1.kind, fun h0 => ⟨h1.careful h, ?_⟩⟩
  obtain ⟨b, hb, _, _, evs, he, hn⟩ := h2 h0
  intro b' hb'
  rw [hb] at hb'
  cases hb'
  rw [he]
  obtain ⟨evs', he', hp⟩ := h1.events
  have : evs' = evs := List.append_cancel_left (he'.symm.trans he)
  subst this
  constructor
  · obtain ⟨r, h1, h2⟩ := hn.handshake
    exact ⟨r, h1, List.mem_append_right _ h2⟩
  · obtain ⟨r, h1, h2⟩ := hn.certificate
    exact ⟨r, h1, List.mem_append_right _ h2⟩
  · rcases hn.chain with h' | ⟨ha, h'⟩
    · exact .inl (List.mem_append_right _ h')
    · obtain ⟨x, y, rfl⟩ := List.append_of_mem h'
      refine .inr ⟨s.hist ++ x, y, by simp, ?_⟩
      rw [selfSigned_append _ fun e he => prep_noCall (hp e (by simp [he])), ← h.accept]
      exact ha

/-- What a failed negotiation leaves behind. -/
theorem startTLSNegotiation_fail (s : St) (hk : s.client.kind ≠ .smtp) :
    wp env startTLSNegotiation (fun code s' => code = 0 ∨ s'.client.bio = none ∨ s'.client.bio = s.client.bio ∨ .tls .verifyPaths 0 ∈ s'.hist)
      (fun _ _ => True) s := by
  have dead : ∀ (s' : St), s'.client.kind ≠ .smtp → wp env cleanup (fun _ s2 => s2.client.bio = none) (fun _ _ => True) s' := by
    intro s' hk'
    refine wp_mono (cleanup_out s') ?_ (fun _ _ _ => trivial)
    rintro _ s2 ⟨h, hd⟩
    refine hd.bio ?_
    have := h.1
    unfold SameCfg at this
    rw [this]
    exact hk'
  have fails2 : ∀ (s' : St) (c : Int), s'.client.kind ≠ .smtp →
      wp env (do cleanup; pure c) (fun code s' => code = 0 ∨ s'.client.bio = none ∨ s'.client.bio = s.client.bio ∨ .tls .verifyPaths 0 ∈ s'.hist) (fun _ _ => True) s' := by
    intro s' c hk'
    rw [wp_bind]
    exact wp_mono (dead s' hk') (fun _ _ h => .inr (.inl h)) (fun _ _ h => h)
  have fails3 : ∀ (s' : St) (c : Int), s'.client.kind ≠ .smtp →
      wp env (do cleanup; setErrNo (← M.ask' (·.tlsErr)); pure c) (fun code s' => code = 0 ∨ s'.client.bio = none ∨ s'.client.bio = s.client.bio ∨ .tls .verifyPaths 0 ∈ s'.hist) (fun _ _ => True) s' := by
    intro s' c hk'
    rw [wp_bind]
    exact wp_mono (dead s' hk') (fun _ _ h => .inr (.inl h)) (fun _ _ h => h)
  have kd : ∀ {c c' : Client}, SameConn c c' → c'.kind = c.kind := by intro c c' h; unfold SameConn at h; rw [h]
  unfold startTLSNegotiation sysTls
  rw [wp_bind]
  refine addLog_deaf (fun _ _ => trivial) fun s1 c1 h1 => ?_
  have k1 : s1.client.kind ≠ .smtp := by rw [kd c1]; exact hk
  have b1 : s1.client.bio = s.client.bio := by unfold SameConn at c1; rw [c1]
  rw [wp_bind, wp_ask, wp_ite]
  refine ⟨fun _ => .inr (.inr (.inl b1)), fun _ => ?_⟩
  rw [wp_bind, wp_modify, wp_bind, wp_histLength, wp_bind, wp_ask, wp_ite]
  refine ⟨fun _ => .inr (.inl rfl), fun _ => ?_⟩
  rw [wp_bind, wp_gets, wp_bind, wp_modify, wp_bind, wp_gets]
  dsimp only
  cases s1.client.serverName with
  | none => trivial
  | some name =>
    dsimp only
    rw [wp_bind, wp_gets, wp_ite]
    refine ⟨fun _ => trivial, fun _ => ?_⟩
    rw [wp_bind, wp_ask, wp_ite]
    refine ⟨fun hv => .inr (.inr (.inr ?_)), fun _ => ?_⟩
    · dsimp only at hv ⊢
      rw [hv]
      simp
    rw [wp_bind, wp_ask, wp_ite]
    refine ⟨fun _ => fails3 _ _ k1, fun _ => ?_⟩
    rw [wp_bind]
    refine addLog_deaf (fun _ _ => trivial) fun s2 c2 h2 => ?_
    have k2 : s2.client.kind ≠ .smtp := by rw [kd c2]; exact k1
    rw [wp_bind, wp_ask, wp_ite]
    refine ⟨fun _ => fails3 _ _ k2, fun hh => ?_⟩
    rw [wp_bind]
    refine addLog_deaf (fun _ _ => trivial) fun s3 c3 h3 => ?_
    have k3 : s3.client.kind ≠ .smtp := by rw [kd c3]; exact k2
    rw [wp_bind, wp_ask, wp_ite]
    refine ⟨fun _ => fails2 _ _ k3, fun hp => ?_⟩
    rw [wp_bind, wp_ask, wp_bind, wp_gets, wp_ite]
    refine ⟨fun hv => ?_, fun hv => ?_⟩
    · rw [wp_bind]
      refine addLog_deaf (fun _ _ => trivial) fun s4 c4 h4 => ?_
      rw [wp_bind]
      refine addLog_deaf (fun _ _ => trivial) fun s5 c5 h5 => ?_
      exact .inl rfl
    · rw [wp_ite]
      refine ⟨fun _ => ?_, fun hz => ?_⟩
      · rw [wp_bind, wp_env, wp_bind]
        refine addLog_deaf (fun _ _ => trivial) fun s4 c4 h4 => fails2 _ _ ?_
        rw [kd c4]; exact k3
      · rw [wp_bind]
        exact addLog_deaf (fun _ _ => trivial) fun s5 c5 h5 => .inl rfl

end Verif.Proofs
