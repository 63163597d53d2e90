import Verif.Proofs.Exchange
import Verif.Spec.Script
/-!
# C44: cleaning up
-/
namespace Verif.Props
open Verif Verif.Model Verif.Spec
open Verif.Proofs (wp wp_bind wp_gets wp_pure wp_ite wp_mono wp_stop wp_modify wp_emit wp_env HasLog)

variable {env : Env}

/-- Every write fails: the network is gone. -/
def Broken (env : Env) : Prop := ∀ h c d, ∃ e, env.send h c d = .fail e

/-- A session of a batch that is still regarded as connected. -/
def InBatch (s : St) : Prop := s.client.batch = true ∧ s.client.isConnected = true ∧ HasLog s

theorem sendPtrWith_broken (hb : Broken env) {onFail : M Unit} {k d e} {s : St} (hs : InBatch s)
    (hf : ∀ s', InBatch s' → wp env onFail (fun _ _ => False) (fun e _ => e = .stackOverflow) s') :
    wp env (sendPtrWith onFail k d e) (fun _ _ => False) (fun e _ => e = .stackOverflow) s := by
  have fail : ∀ (c : Chan) (e' : Int) (a : M Int), (∀ s', s'.client = s.client → wp env a (fun _ _ => False) (fun e _ => e = .stackOverflow) s') →
      wp env (do
        match ← sysSend k c (cstr d) with
        | .fail _ => a
        | _ => pure 0) (fun _ _ => False) (fun e _ => e = .stackOverflow) s := by
    intro c e' a ha
    unfold sysSend
    obtain ⟨n, hn⟩ := hb s.hist c (cstr d)
    rw [wp_bind, wp_bind, Proofs.wp_ask, hn, wp_ite]
    refine ⟨nofun, fun _ => ?_⟩
    rw [wp_pure]
    exact ha _ rfl
  have keep : ∀ {s' : St} (n : Int), s'.client = s.client → InBatch { s' with client := { s'.client with lastErrNo := n } } := by
    intro s' n h
    unfold InBatch HasLog
    rw [h]
    exact hs
  unfold sendPtrWith
  rw [wp_bind, wp_gets, wp_bind, wp_gets, wp_ite]
  refine ⟨fun _ => ?_, fun _ => ?_⟩
  · unfold sendRawWith
    rw [wp_bind, wp_gets]
    unfold sysSend
    obtain ⟨n, hn⟩ := hb s.hist (.raw s.client.sock) (cstr d)
    rw [wp_bind, wp_bind, Proofs.wp_ask, hn, wp_ite]
    refine ⟨nofun, fun _ => ?_⟩
    rw [wp_pure]
    show wp env (do setErrNo n; onFail; pure e) _ _ _
    unfold setErrNo
    rw [wp_bind, wp_modify, wp_bind]
    exact wp_mono (hf _ (keep n rfl)) (fun _ _ h => h.elim) (fun _ _ h => h)
  · unfold sendBioWith
    rw [wp_bind, wp_gets]
    cases s.client.bio with
    | none =>
      dsimp only
      unfold setErrNo
      rw [wp_bind, Proofs.wp_ask', wp_bind, wp_modify, wp_bind]
      exact wp_mono (hf _ (keep _ rfl)) (fun _ _ h => h.elim) (fun _ _ h => h)
    | some b =>
      refine fail _ 0 _ fun s' h' => ?_
      unfold setErrNo
      rw [wp_bind, Proofs.wp_ask', wp_bind, wp_modify, wp_bind]
      exact wp_mono (hf _ (keep _ h')) (fun _ _ h => h.elim) (fun _ _ h => h)

theorem cleanupN_broken (hb : Broken env) (n : Nat) (s : St) (hs : InBatch s) :
    wp env (cleanupN n) (fun _ _ => False) (fun e _ => e = .stackOverflow) s := by
  induction n generalizing s with
  | zero => rfl
  | succ n ih =>
    unfold cleanupN
    rw [wp_bind, wp_gets, wp_bind, wp_gets, wp_ite]
    refine ⟨fun _ => ?_, fun h => absurd (by rw [hs.1, hs.2.1]; rfl) h⟩
    unfold sendQuitWith
    rw [wp_bind, wp_bind]
    refine Proofs.wp_addLog hs.2.2 fun l _ hl => ?_
    exact wp_mono (sendPtrWith_broken hb ⟨hs.1, hs.2.1, l, rfl, hl⟩ ih) (fun _ _ h => h.elim) (fun _ _ h => h)

/-- **C44, refuted**, for every stack size: when writing fails in batch mode on a session regarded as connected, `cleanup` sends QUIT, whose
failure calls `cleanup` again, and so on until the stack is used up. -/
theorem C44_cleanup_recursion (env : Env) (hb : Broken env) (s : St) (hs : InBatch s) : (cleanup env s).1 = .stop .stackOverflow := by
  have : wp env cleanup (fun _ _ => False) (fun e _ => e = .stackOverflow) s := by
    unfold cleanup
    rw [wp_bind, wp_env]
    exact cleanupN_broken hb env.depth s hs
  unfold wp at this
  split at this
  · exact this.elim
  · rename_i e _ hrun
    rw [hrun, this]

/-- **C44, refuted**, in a complete run: in batch mode the connection breaks after the greeting, EHLO and MAIL FROM; sending RCPT TO then never
ends. -/
theorem C44_sendMail_recursion :
    (let s := fresh .smtp
     sendMail mail (scripted (.data b!"220 hi\r\n" :: clear [b!"250 ok\r\n", b!"250 ok\r\n"]) (fun n => if n < 2 then none else some (.fail 32)))
       { s with client := { s.client with batch := true } }).1 = .stop .stackOverflow := by decide +kernel

/-- QUIT was sent successfully. -/
def QuitSent (h : Hist) : Prop := ∃ c d n, .send .quit c d (.sent n) ∈ h

/-- How `cleanup` can fail to come back: a write blocks for ever, or in batch mode on a connected session no QUIT could be sent. -/
def BadEnd (s : St) (e : Stop) (s' : St) : Prop :=
  (e = .hang ∧ ∃ c, .send .quit c quitCmd .never ∈ s'.hist) ∨
  (e = .stackOverflow ∧ s.client.batch = true ∧ s.client.isConnected = true ∧ ∃ evs, s'.hist = s.hist ++ evs ∧ ¬ QuitSent evs)

theorem closeSession_ok (s : St) : wp env closeSession (fun _ s' => Proofs.Dead s'.client) (fun _ _ => False) s := by
  unfold closeSession closeSocket freeTls sysClose
  simp only [wp_bind, wp_modify, wp_gets, wp_ite, wp_emit]
  by_cases hk : s.client.kind = .smtp
  · exact ⟨fun _ => ⟨fun _ => ⟨rfl, rfl, fun h => absurd hk h⟩, fun _ => ⟨rfl, rfl, fun h => absurd hk h⟩⟩, fun h => absurd hk h⟩
  · refine ⟨fun h => absurd h hk, fun _ => ?_⟩
    unfold emitBioFree
    split
    · exact ⟨fun _ => ⟨rfl, rfl, fun _ => rfl⟩, fun _ => ⟨rfl, rfl, fun _ => rfl⟩⟩
    · exact ⟨fun _ => ⟨rfl, rfl, fun _ => rfl⟩, fun _ => ⟨rfl, rfl, fun _ => rfl⟩⟩

theorem BadEnd.earlier {s s1 : St} {w : Hist} (hb : s1.client.batch = s.client.batch) (hc : s1.client.isConnected = s.client.isConnected)
    (hw : s1.hist = s.hist ++ w) (hq : ¬ QuitSent w) {e : Stop} {s' : St} (h : BadEnd s1 e s') : BadEnd s e s' := by
  rcases h with h | ⟨h1, h2, h3, evs, h4, h5⟩
  · exact .inl h
  · refine .inr ⟨h1, by rw [← hb]; exact h2, by rw [← hc]; exact h3, w ++ evs, by rw [h4, hw, List.append_assoc], ?_⟩
    rintro ⟨c, d, n, hm⟩
    rcases List.mem_append.mp hm with hm | hm
    · exact hq ⟨c, d, n, hm⟩
    · exact h5 ⟨c, d, n, hm⟩

theorem sysSend_ends (k : SendKind) (ch : Chan) (d : Bytes) (s : St) :
    wp env (sysSend k ch d) (fun r s' => r ≠ .never ∧ s' = Proofs.St.snoc s (.send k ch d r))
      (fun e s' => e = .hang ∧ s' = Proofs.St.snoc s (.send k ch d .never)) s := by
  unfold sysSend
  simp only [wp_bind, Proofs.wp_ask, wp_ite, wp_stop, wp_pure]
  exact ⟨fun h => by rw [h]; exact ⟨trivial, rfl⟩, fun h => ⟨h, rfl⟩⟩

theorem quit_ends {onFail : M Unit} (s : St) (hl : HasLog s)
    (hf : ∀ s' w, s'.client.batch = s.client.batch → s'.client.isConnected = s.client.isConnected → s'.hist = s.hist ++ w → ¬ QuitSent w → HasLog s' →
      wp env onFail (fun _ _ => True) (BadEnd s) s') :
    wp env (sendQuitWith onFail) (fun _ _ => True) (BadEnd s) s := by
  unfold sendQuitWith
  rw [wp_bind]
  refine Proofs.wp_addLog hl fun l op ho => ?_
  have log : ∀ n h, HasLog { client := { s.client with log := some l, lastErrNo := n }, hist := h, mem := s.mem ++ [op] } := fun _ _ => ⟨l, rfl, ho⟩
  have hang : ∀ c, BadEnd s .hang (Proofs.St.snoc { s with client := { s.client with log := some l }, mem := s.mem ++ [op] } (.send .quit c quitCmd .never)) := by
    intro c
    exact .inl ⟨rfl, c, by simp [Proofs.St.snoc]⟩
  have nq : ∀ c d e, ¬ QuitSent [.send .quit c d (.fail e)] := by
    rintro c d e ⟨c', d', n, hm⟩
    simp at hm
  unfold sendPtrWith
  rw [wp_bind, wp_gets, wp_bind, wp_gets, wp_ite]
  refine ⟨fun _ => ?_, fun _ => ?_⟩
  · unfold sendRawWith
    rw [wp_bind, wp_gets, wp_bind]
    refine wp_mono (sysSend_ends _ _ _ _) ?_ ?_
    · rintro r s1 ⟨hr, rfl⟩
      cases r with
      | never => exact absurd rfl hr
      | sent n => exact trivial
      | fail e' =>
        dsimp only
        unfold setErrNo
        rw [wp_bind, wp_modify, wp_bind]
        exact wp_mono (hf _ _ rfl rfl rfl (nq _ _ e') (log e' _)) (fun _ _ _ => trivial) (fun _ _ h => h)
    · rintro e s1 ⟨rfl, rfl⟩
      exact hang _
  · unfold sendBioWith
    rw [wp_bind, wp_gets]
    dsimp only
    cases hb : s.client.bio with
    | none =>
      dsimp only
      unfold setErrNo
      rw [wp_bind, Proofs.wp_ask', wp_bind, wp_modify, wp_bind]
      refine wp_mono (hf _ [] rfl rfl (by simp) (by rintro ⟨c', d', n, hm⟩; simp at hm) ⟨l, rfl, ho⟩) (fun _ _ _ => trivial) (fun _ _ h => h)
    | some b =>
      dsimp only
      rw [wp_bind]
      refine wp_mono (sysSend_ends _ _ _ _) ?_ ?_
      · rintro r s1 ⟨hr, rfl⟩
        cases r with
        | never => exact absurd rfl hr
        | sent n => exact trivial
        | fail e' =>
          dsimp only
          unfold setErrNo
          rw [wp_bind, Proofs.wp_ask', wp_bind, wp_modify, wp_bind]
          exact wp_mono (hf _ _ rfl rfl rfl (nq _ _ e') ⟨l, rfl, ho⟩) (fun _ _ _ => trivial) (fun _ _ h => h)
      · rintro e s1 ⟨rfl, rfl⟩
        exact hang _

theorem cleanupN_ends (n : Nat) (s : St) (hl : HasLog s) (hn : n = 0 → s.client.batch = true ∧ s.client.isConnected = true) :
    wp env (cleanupN n) (fun _ s' => Proofs.Dead s'.client) (BadEnd s) s := by
  induction n generalizing s with
  | zero =>
    refine .inr ⟨rfl, (hn rfl).1, (hn rfl).2, [], by simp, ?_⟩
    rintro ⟨c', d', n, hm⟩
    simp at hm
  | succ n ih =>
    unfold cleanupN
    rw [wp_bind, wp_gets, wp_bind, wp_gets, wp_ite]
    refine ⟨fun hb => ?_, fun _ => wp_mono (closeSession_ok s) (fun _ _ h => h) (fun _ _ h => h.elim)⟩
    simp only [Bool.and_eq_true] at hb
    rw [wp_bind]
    refine wp_mono (quit_ends s hl ?_) (fun _ s1 _ => wp_mono (closeSession_ok s1) (fun _ _ h => h) (fun _ _ h => h.elim)) (fun _ _ h => h)
    intro s' w h1 h2 h3 h4 h5
    exact wp_mono (ih s' h5 (fun _ => ⟨by rw [h1]; exact hb.1, by rw [h2]; exact hb.2⟩)) (fun _ _ _ => trivial) (fun _ _ h => BadEnd.earlier h1 h2 h3 h4 h)

/-- **C44, partial.** With room for at least one call on the stack, and in a session (so there is a log), `cleanup` returns and the client is
disconnected, except when a write of QUIT blocks for ever, or when in batch mode on a connected session not a single QUIT could be sent. -/
theorem C44_cleanup_terminates_partial (env : Env) (s : St) (hl : HasLog s) (hd : 0 < env.depth) :
    (∃ s', cleanup env s = (.ok (), s') ∧ s'.client.sock = 0 ∧ s'.client.isConnected = false) ∨
    ∃ e s', cleanup env s = (.stop e, s') ∧ BadEnd s e s' := by
  have : wp env cleanup (fun _ s' => Proofs.Dead s'.client) (BadEnd s) s := by
    unfold cleanup
    rw [wp_bind, wp_env]
    exact cleanupN_ends env.depth s hl (fun h => by omega)
  unfold wp at this
  revert this
  cases cleanup env s with
  | mk r s' =>
    cases r with
    | ok a => exact fun h => .inl ⟨s', rfl, h.sock, h.isConnected⟩
    | stop e => exact fun h => .inr ⟨e, s', rfl, h⟩

/-- Outside batch mode `cleanup` sends nothing and always returns, with or without a log. -/
theorem C44_cleanup_without_batch (env : Env) (s : St) (hb : s.client.batch = false) (hd : 0 < env.depth) :
    ∃ s', cleanup env s = (.ok (), s') ∧ s'.client.sock = 0 ∧ s'.client.isConnected = false := by
  have : wp env cleanup (fun _ s' => Proofs.Dead s'.client) (fun _ _ => False) s := by
    unfold cleanup
    rw [wp_bind, wp_env]
    obtain ⟨n, hn⟩ : ∃ n, env.depth = n + 1 := ⟨env.depth - 1, by omega⟩
    rw [hn]
    unfold cleanupN
    rw [wp_bind, wp_gets, wp_bind, wp_gets, wp_ite]
    exact ⟨fun h => by simp [hb] at h, fun _ => closeSession_ok s⟩
  unfold wp at this
  revert this
  cases cleanup env s with
  | mk r s' =>
    cases r with
    | ok a => exact fun h => ⟨s', rfl, h.sock, h.isConnected⟩
    | stop e => exact fun h => h.elim

/-- Non-vacuity: cleaning up in batch mode, the second attempt to send QUIT succeeds. -/
example : (let s := fresh .smtp
    let r := cleanup (scripted [] (fun n => if n = 0 then some (.fail 32) else none))
      { s with client := { s.client with batch := true, isConnected := true, sock := 5, log := some .fresh } }
    (r.1, r.2.hist.length)) = (.ok (), 3) := by decide +kernel

/-- Non-vacuity of `Broken`: a network that is gone. -/
example : Broken { scripted [] with send := fun _ _ _ => .fail 32 } := fun _ _ _ => ⟨32, rfl⟩

end Verif.Props
