import Verif.Proofs.Turn
/-!
# How a command can end
-/
namespace Verif.Proofs
open Verif Verif.Model Verif.Spec

variable {α : Type} {env : Env}

/-- The configuration is the same, the connection may be gone. -/
def SameCfg (c c' : Client) : Prop :=
  c' = { c with log := c'.log, lastErrNo := c'.lastErrNo, lastResponse := c'.lastResponse, authOptions := c'.authOptions,
                isConnected := c'.isConnected, ctx := c'.ctx, bio := c'.bio, sock := c'.sock }

theorem SameCfg.refl (c : Client) : SameCfg c c := rfl
theorem SameCfg.trans {a b c : Client} (h : SameCfg a b) (h' : SameCfg b c) : SameCfg a c := by
  unfold SameCfg at *; rw [h'] ; rw [h]
theorem SameConn.cfg {a b : Client} (h : SameConn a b) : SameCfg a b := by
  unfold SameConn SameCfg at *; rw [h]

/-- Events after which only QUIT can have been sent. -/
def EndEv : Ev → Prop
  | .send k _ d _ => k = .quit ∧ d = quitCmd
  | .close _ => True
  | .bioFree _ => True
  | e => QuietEv e

theorem quiet_end {e : Ev} (h : QuietEv e) : EndEv e := by cases e <;> simp_all [QuietEv, DeafEv, EndEv]

/-- The session was ended, or nothing was said. -/
def Ended (s s' : St) : Prop := SameCfg s.client s'.client ∧ NewEvents EndEv s s'

theorem Quiet.ended {s s' : St} (h : Quiet s s') : Ended s s' := ⟨h.1.cfg, h.2.mono fun _ => quiet_end⟩
theorem Deaf.ended {s s' : St} (h : Deaf s s') : Ended s s' := h.heard.quiet.ended

instance : Cleaning Ended where
  refl := fun _ => ⟨rfl, .same rfl⟩
  trans := fun h h' => ⟨h.1.trans h'.1, h.2.trans h'.2⟩
  log := fun _ _ _ _ _ _ _ => ⟨rfl, .same rfl⟩
  errno := fun _ _ => ⟨rfl, .same rfl⟩
  resp := fun _ _ => ⟨rfl, .same rfl⟩
  auth := fun _ _ => ⟨rfl, .same rfl⟩
  fcntlGet := fun _ _ _ => ⟨rfl, .one trivial⟩
  fcntlSet := fun _ _ _ _ => ⟨rfl, .one trivial⟩
  select := fun _ _ _ => ⟨rfl, .one trivial⟩
  sockopt := fun _ _ _ => ⟨rfl, .one trivial⟩
  resolve := fun _ _ _ => ⟨rfl, .one trivial⟩
  connect := fun _ _ _ _ => ⟨rfl, .one trivial⟩
  sleep := fun _ => ⟨rfl, .one trivial⟩
  recv := fun _ _ _ => ⟨rfl, .one trivial⟩
  disconnected := fun _ => ⟨rfl, .same rfl⟩
  ctx := fun _ _ => ⟨rfl, .same rfl⟩
  noBio := fun _ => ⟨rfl, .same rfl⟩
  noSock := fun _ => ⟨rfl, .same rfl⟩
  close := fun _ _ => ⟨rfl, .one trivial⟩
  bioFree := fun _ _ => ⟨rfl, .one trivial⟩
  quit := fun _ _ _ => ⟨rfl, .one ⟨rfl, rfl⟩⟩

instance : Filing Ended where
  readFile := fun _ _ _ => ⟨rfl, .one trivial⟩

theorem Ended.trans {a b c : St} (h : Ended a b) (h' : Ended b c) : Ended a c := Preord.trans h h'
theorem Ended.refl (s : St) : Ended s s := Preord.refl s

/-- There is no connection any more. -/
structure Dead (c : Client) : Prop where
  sock : c.sock = 0
  isConnected : c.isConnected = false
  bio : c.kind ≠ .smtp → c.bio = none

theorem Dead.same {c c' : Client} (h : Dead c) (h' : SameConn c c') : Dead c' := by
  unfold SameConn at h'
  rw [h']
  exact ⟨h.sock, h.isConnected, h.bio⟩

theorem closeSession_out (s : St) : wp env closeSession (fun _ s' => Ended s s' ∧ Dead s'.client) (fun _ => Ended s) s := by
  refine wp_mono (wp_and (closeSession_steps.run s) (?_ : wp env closeSession (fun _ s' => Dead s'.client) (fun _ _ => True) s))
    (fun _ _ h => h) (fun _ _ h => h.1)
  unfold closeSession closeSocket freeTls sysClose
  simp only [wp_bind, wp_modify, wp_gets, wp_ite, wp_emit]
  by_cases hk : s.client.kind = .smtp
  · refine ⟨fun _ => ⟨fun _ => ⟨rfl, rfl, fun h => absurd hk h⟩, fun _ => ⟨rfl, rfl, fun h => absurd hk h⟩⟩, fun h => absurd hk h⟩
  · refine ⟨fun h => absurd h hk, fun _ => ?_⟩
    unfold emitBioFree
    split
    · exact ⟨fun _ => ⟨rfl, rfl, fun _ => rfl⟩, fun _ => ⟨rfl, rfl, fun _ => rfl⟩⟩
    · exact ⟨fun _ => ⟨rfl, rfl, fun _ => rfl⟩, fun _ => ⟨rfl, rfl, fun _ => rfl⟩⟩

theorem cleanupN_out (n : Nat) (s : St) : wp env (cleanupN n) (fun _ s' => Ended s s' ∧ Dead s'.client) (fun _ => Ended s) s := by
  cases n with
  | zero => exact Ended.refl s
  | succ n =>
    unfold cleanupN
    simp only [wp_bind, wp_gets, wp_ite]
    refine ⟨fun _ => ?_, fun _ => closeSession_out s⟩
    refine wp_mono ((sendQuitWith_steps (cleanupN_steps n)).run s) (fun _ s1 h1 => ?_) (fun _ _ h => h)
    exact wp_mono (closeSession_out s1) (fun _ _ h => ⟨h1.trans h.1, h.2⟩) (fun _ _ h => h1.trans h)

theorem cleanup_out (s : St) : wp env cleanup (fun _ s' => Ended s s' ∧ Dead s'.client) (fun _ => Ended s) s := by
  unfold cleanup
  rw [wp_bind, wp_env]
  exact cleanupN_out _ s

/-- `cleanup` later on. -/
theorem cleanup_after {s s1 : St} (h : Ended s s1) :
    wp env cleanup (fun _ s' => Ended s s' ∧ Dead s'.client) (fun _ => Ended s) s1 :=
  wp_mono (cleanup_out s1) (fun _ _ h' => ⟨h.trans h'.1, h'.2⟩) (fun _ _ h' => h.trans h')

/-- Where the next command goes. -/
def chan (c : Client) : Chan :=
  if c.ptrRaw || c.kind == .smtp then .raw c.sock
  else match c.bio with
    | none => .raw c.sock
    | some b => .tls b.id b.fd

theorem chan_same {c c' : Client} (h : SameConn c c') : chan c' = chan c := by
  unfold SameConn at h; rw [h]; rfl

/-- Sent. -/
def Accepted (k : SendKind) (d : Bytes) (s s' : St) : Prop := ∃ n, s' = St.snoc s (.send k (chan s.client) (cstr d) (.sent n))

/-- Not accepted, or not even tried. -/
def Refused (k : SendKind) (d : Bytes) (s s' : St) : Prop :=
  Ended s s' ∨ ∃ r, (∀ n, r ≠ .sent n) ∧ Ended (St.snoc s (.send k (chan s.client) (cstr d) r)) s'

theorem sysSend_out (k : SendKind) (ch : Chan) (d : Bytes) (s : St) :
    wp env (sysSend k ch d) (fun r s' => r ≠ .never ∧ s' = St.snoc s (.send k ch d r)) (fun _ s' => s' = St.snoc s (.send k ch d .never)) s := by
  unfold sysSend
  simp only [wp_bind, wp_ask, wp_ite, wp_stop, wp_pure]
  exact ⟨fun h => by rw [h]; rfl, fun h => ⟨h, rfl⟩⟩

theorem sendRaw_out (k d e) (s : St) (hc : chan s.client = .raw s.client.sock) :
    wp env (sendRaw k d e) (fun code s' => (code = 0 ∧ Accepted k d s s') ∨
        (code = e ∧ Dead s'.client ∧ ∃ r, (∀ n, r ≠ .sent n) ∧ Ended (St.snoc s (.send k (chan s.client) (cstr d) r)) s'))
      (fun _ s' => ∃ r, (∀ n, r ≠ .sent n) ∧ Ended (St.snoc s (.send k (chan s.client) (cstr d) r)) s') s := by
  unfold sendRaw sendRawWith
  simp only [wp_bind, wp_gets]
  rw [← hc]
  refine wp_mono (sysSend_out _ _ _ s) ?_ ?_
  · rintro r s1 ⟨hr, rfl⟩
    cases r with
    | never => exact absurd rfl hr
    | sent n => exact .inl ⟨rfl, n, rfl⟩
    | fail e' =>
      dsimp only
      unfold setErrNo
      simp only [wp_bind, wp_modify, wp_pure]
      refine wp_mono (cleanup_after (Cleaning.toReading.errno (R := Ended) (St.snoc s (.send k (chan s.client) (cstr d) (.fail e'))) e')) ?_ ?_
      · rintro _ s2 ⟨h2, hd⟩
        exact .inr ⟨trivial, hd, _, fun n => by simp, h2⟩
      · intro _ s2 h2
        exact ⟨_, fun n => by simp, h2⟩
  · rintro _ s1 rfl
    exact ⟨.never, fun n => by simp, Ended.refl _⟩

theorem sendBio_out (k d e) (s : St) (hc : (s.client.ptrRaw || s.client.kind == .smtp) = false) :
    wp env (sendBioWith cleanup k d e) (fun code s' => (code = 0 ∧ Accepted k d s s') ∨ (code = e ∧ Dead s'.client ∧ Refused k d s s'))
      (fun _ s' => Refused k d s s') s := by
  unfold sendBioWith
  simp only [wp_bind, wp_gets]
  cases hb : s.client.bio with
  | none =>
    dsimp only
    unfold setErrNo
    simp only [wp_bind, wp_modify, wp_pure, wp_ask']
    refine wp_mono (cleanup_after (Cleaning.toReading.errno (R := Ended) s _)) ?_ ?_
    · rintro _ s2 ⟨h2, hd⟩
      exact .inr ⟨trivial, hd, .inl h2⟩
    · intro _ s2 h2
      exact .inl h2
  | some b =>
    have hch : chan s.client = .tls b.id b.fd := by unfold chan; rw [hc, hb]; rfl
    dsimp only
    rw [← hch]
    simp only [wp_bind]
    refine wp_mono (sysSend_out _ _ _ s) ?_ ?_
    · rintro r s1 ⟨hr, rfl⟩
      cases r with
      | never => exact absurd rfl hr
      | sent n => exact .inl ⟨rfl, n, rfl⟩
      | fail e' =>
        dsimp only
        unfold setErrNo
        simp only [wp_bind, wp_modify, wp_pure, wp_ask']
        refine wp_mono (cleanup_after (Cleaning.toReading.errno (R := Ended) (St.snoc s (.send k (chan s.client) (cstr d) (.fail e'))) _)) ?_ ?_
        · rintro _ s2 ⟨h2, hd⟩
          exact .inr ⟨trivial, hd, .inr ⟨_, fun n => by simp, h2⟩⟩
        · intro _ s2 h2
          exact .inr ⟨_, fun n => by simp, h2⟩
    · rintro _ s1 rfl
      exact .inr ⟨.never, fun n => by simp, Ended.refl _⟩

/-- **Sending a piece.** -/
theorem sendPtr_out (k d e) (s : St) :
    wp env (sendPtr k d e) (fun code s' => (code = 0 ∧ Accepted k d s s') ∨ (code = e ∧ Dead s'.client ∧ Refused k d s s'))
      (fun _ s' => Refused k d s s') s := by
  unfold sendPtr sendPtrWith
  simp only [wp_bind, wp_gets, wp_ite]
  cases hc : (s.client.ptrRaw || s.client.kind == .smtp)
  · exact ⟨fun h => by simp at h, fun _ => sendBio_out k d e s hc⟩
  · refine ⟨fun _ => ?_, fun h => by simp at h⟩
    refine wp_mono (sendRaw_out k d e s (by unfold chan; rw [hc]; rfl)) ?_ (fun _ s' h => .inr h)
    rintro code s' (h | ⟨h1, h2, h3⟩)
    · exact .inl h
    · exact .inr ⟨h1, h2, .inr h3⟩

/-- The command was sent and answered. -/
def Replied (d : Bytes) (code : Int) (s s' : St) : Prop :=
  ∃ n t, Heard t (St.snoc s (.send .cmd (chan s.client) (cstr d) (.sent n))) s' ∧ ReplyCode t code

/-- The command was sent, perhaps, and then nothing else was said but QUIT. -/
def Over (d : Bytes) (s s' : St) : Prop := ∃ r, Ended (St.snoc s (.send .cmd (chan s.client) (cstr d) r)) s'

/-- After a successful send: wait for the reply. -/
theorem reply_out {m : M Int} (hm : ∀ s, wp env m (fun code s' => GotCode s code s') (fun _ => Quiet s) s) (d t) (s s1 : St)
    (h1 : Accepted .cmd d s s1) :
    wp env (do
        let code ← m
        if code ≠ -1 then pure code
        else do
          cleanup
          pure t : M Int)
      (fun code s' => Replied d code s s' ∨ (code = t ∧ Dead s'.client ∧ Over d s s')) (fun _ s' => Over d s s') s1 := by
  obtain ⟨n, rfl⟩ := h1
  rw [wp_bind]
  refine wp_mono (hm _) (fun code s2 h2 => ?_) (fun _ s2 h2 => ⟨_, h2.ended⟩)
  rw [wp_ite]
  refine ⟨fun hne => .inl ?_, fun _ => ?_⟩
  · obtain ⟨t, ht, hc⟩ := h2
    exact ⟨n, t, ht, hc.resolve_left hne⟩
  · rw [wp_bind]
    refine wp_mono (cleanup_after h2.quiet.ended) ?_ (fun _ s3 h3 => ⟨_, h3⟩)
    rintro _ s3 ⟨h3, hd⟩
    exact .inr ⟨rfl, hd, _, h3⟩

theorem sendRawFb_out (d e t) (s : St) (he : e ≠ 0) (hc : chan s.client = .raw s.client.sock) :
    wp env (sendRawFb d e t) (fun code s' => Replied d code s s' ∨ ((code = e ∨ code = t) ∧ Dead s'.client ∧ Over d s s'))
      (fun _ s' => Over d s s') s := by
  unfold sendRawFb
  rw [wp_bind]
  refine wp_mono (sendRaw_out _ _ _ s hc) ?_ ?_
  · rintro code s1 (⟨rfl, h1⟩ | ⟨rfl, hd, r, _, h1⟩)
    · rw [wp_ite]
      refine ⟨fun h => absurd rfl h, fun _ => ?_⟩
      refine wp_mono (reply_out getRawReply_code d t s s1 h1) ?_ (fun _ _ h => h)
      rintro code s2 (h | ⟨h, h'⟩)
      · exact .inl h
      · exact .inr ⟨.inr h, h'⟩
    · rw [wp_ite]
      refine ⟨fun _ => .inr ⟨.inl rfl, hd, r, h1⟩, fun h => absurd he h⟩
  · rintro _ s1 ⟨r, _, h1⟩
    exact ⟨r, h1⟩

theorem sendTlsFb_out (d e t) (s : St) (he : e ≠ 0) (hc : (s.client.ptrRaw || s.client.kind == .smtp) = false) (hb : s.client.bio ≠ none) :
    wp env (sendTlsFb d e t) (fun code s' => Replied d code s s' ∨ ((code = e ∨ code = t) ∧ Dead s'.client ∧ Over d s s'))
      (fun _ s' => Over d s s') s := by
  have first : ∀ s', Refused .cmd d s s' → (∃ evs, s'.hist = s.hist ++ evs ∧ evs.head?.any (fun e => e matches .send .cmd _ _ _) = true) → Over d s s' := by
    rintro s' (h | ⟨r, _, h⟩) ⟨evs, he, hf⟩
    · exfalso
      obtain ⟨_, evs', he', ha⟩ := h
      have : evs' = evs := List.append_cancel_left (he'.symm.trans he)
      subst this
      cases evs' with
      | nil => simp at hf
      | cons e evs' =>
        have := ha e (by simp)
        simp only [List.head?_cons, Option.any_some] at hf
        split at hf
        · exact absurd this.1 (by simp)
        · simp at hf
    · exact ⟨r, h⟩
  unfold sendTlsFb
  rw [wp_bind]
  have hfirst : wp env (sendBioWith cleanup .cmd d e)
      (fun _ s' => ∃ evs, s'.hist = s.hist ++ evs ∧ evs.head?.any (fun e => e matches .send .cmd _ _ _) = true)
      (fun _ s' => ∃ evs, s'.hist = s.hist ++ evs ∧ evs.head?.any (fun e => e matches .send .cmd _ _ _) = true) s := by
    cases hb' : s.client.bio with
    | none => exact absurd hb' hb
    | some b =>
      unfold sendBioWith
      rw [wp_bind, wp_gets, hb']
      dsimp only
      rw [wp_bind]
      have key : ∀ r s', Ended (St.snoc s (.send .cmd (.tls b.id b.fd) (cstr d) r)) s' →
          ∃ evs, s'.hist = s.hist ++ evs ∧ evs.head?.any (fun e => e matches .send .cmd _ _ _) = true := by
        rintro r s' ⟨_, evs, h, _⟩
        exact ⟨.send .cmd (.tls b.id b.fd) (cstr d) r :: evs, by rw [h]; simp [St.snoc], rfl⟩
      refine wp_mono (sysSend_out _ _ _ s) ?_ ?_
      · rintro r s1 ⟨hr, rfl⟩
        clear hr
        have : Steps env Ended (match r with
          | .fail _ => do
            setErrNo (← M.ask' (·.tlsErr))
            cleanup
            pure e
          | _ => pure (0 : Int) : M Int) := by steps [setErrNo_steps, cleanup_steps]
        exact wp_mono (this.run _) (fun _ _ h => key _ _ h) (fun _ _ h => key _ _ h)
      · rintro _ s1 rfl
        exact key _ _ (Ended.refl _)
  refine wp_mono (wp_and (sendBio_out _ _ _ s hc) hfirst) ?_ ?_
  · rintro code s1 ⟨⟨rfl, h1⟩ | ⟨rfl, hd, h1⟩, hf⟩
    · rw [wp_ite]
      refine ⟨fun h => absurd rfl h, fun _ => ?_⟩
      refine wp_mono (reply_out getTlsReply_code d t s s1 h1) ?_ (fun _ _ h => h)
      rintro code s2 (h | ⟨h, h'⟩)
      · exact .inl h
      · exact .inr ⟨.inr h, h'⟩
    · rw [wp_ite]
      refine ⟨fun _ => .inr ⟨.inl rfl, hd, first _ h1 hf⟩, fun h => absurd he h⟩
  · rintro _ s1 ⟨h1, hf⟩
    exact first _ h1 hf

/-- **Sending a command.** -/
theorem sendPtrFb_out (d e t) (s : St) (he : e ≠ 0) :
    wp env (sendPtrFb d e t) (fun code s' => Replied d code s s' ∨ ((code = e ∨ code = t) ∧ Dead s'.client ∧ Over d s s'))
      (fun _ s' => Over d s s') s := by
  unfold sendPtrFb sendFb
  simp only [wp_bind, wp_gets, wp_ite]
  refine ⟨fun h => sendRawFb_out d e t s he (by unfold chan; rw [h]; rfl), fun hp => ⟨fun h => ?_, fun h => ?_⟩⟩
  · refine sendRawFb_out d e t s he ?_
    unfold chan
    rw [Bool.or_eq_true] at h
    rcases h with h | h
    · rw [h]; simp
    · rw [Option.isNone_iff_eq_none] at h; rw [h]; split <;> rfl
  · simp only [Bool.not_eq_true, Bool.or_eq_false_iff, Option.isNone_eq_false_iff] at h hp
    refine sendTlsFb_out d e t s he (by rw [hp, h.1]; rfl) ?_
    intro hb
    rw [hb] at h
    simp at h

end Verif.Proofs
