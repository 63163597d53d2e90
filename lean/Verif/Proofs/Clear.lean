import Verif.Spec.Clear
import Verif.Proofs.Welcome
import Verif.Proofs.Leaks
/-!
# Lemmas on what the opportunistic client says in clear
-/
namespace Verif.Proofs
open Verif Verif.Model Verif.Spec

variable {env : Env}

/-! ### The answer to EHLO -/

/-- The text kept as the last response is what was heard. -/
def KeptLast (s s' : St) : Prop := ∃ evs, s'.hist = s.hist ++ evs ∧ s'.client.lastResponse = some (heard evs)

theorem addLog_last (a b) (s : St) : post env (addLog a b) (fun _ s' => s'.hist = s.hist ∧ s'.client.lastResponse = s.client.lastResponse) s := by
  refine wp_mono (addLog_keeps a b s) ?_ (fun _ _ _ => trivial)
  rintro _ s1 ⟨l, e1⟩
  rw [e1]
  exact ⟨rfl, rfl⟩

theorem getRawReply_last (s : St) : post env getRawReply (fun code s' => code ≠ -1 → KeptLast s s') s := by
  unfold getRawReply post
  rw [wp_bind]
  refine wp_mono (setNonBlocking_steps (R := Deaf).run s) (fun _ s1 h1 => ?_) (fun _ _ _ => trivial)
  simp only [wp_bind, wp_env]
  have hsock : s1.client.sock = s.client.sock := by have := h1.1; unfold SameConn at this; rw [this]
  refine post_mono (rawReplyLoop_took _ _ _ _ s1) ?_
  rintro ⟨w, acc, got⟩ s2 ⟨rs, ht, h2, _⟩
  rw [List.nil_append] at ht
  dsimp only at ht
  subst ht
  have h2 := h1.then_took h2
  dsimp only
  refine wp_mono (setBlocking_steps (R := Deaf).run s2) (fun _ s3 h3 => ?_) (fun _ _ _ => trivial)
  have h3 := h2.then_deaf h3
  simp only [wp_gets, wp_ite, wp_bind, wp_pure]
  refine ⟨fun _ => ?_, fun _ h => absurd rfl h⟩
  unfold setLastServerResponse
  rw [wp_modifyMem]
  refine post_mono (addLog_last _ _ _) ?_
  rintro _ s5 ⟨h5, l5⟩ _
  obtain ⟨_, evs, he, _, ht, _⟩ := id h3
  refine ⟨evs, by rw [h5]; exact he, ?_⟩
  rw [l5, ht]
  exact congrArg some h3.heard.no_nul

theorem sendRawFb_last (d) (e t v : Int) (he : e ≠ 0) (hve : v ≠ e) (hvt : v ≠ t) (s : St) :
    post env (sendRawFb d e t) (fun code s' => code = v → ∃ n evs, s'.hist = s.hist ++ .send .cmd (.raw s.client.sock) (cstr d) (.sent n) :: evs ∧
      s'.client.lastResponse = some (heard evs)) s := by
  unfold sendRawFb post
  rw [wp_bind]
  refine post_mono (sendRaw_took _ _ _ he s) fun code s1 h1 => ?_
  rw [wp_ite]
  refine ⟨fun _ h => absurd h.symm hve, fun h0 => ?_⟩
  obtain ⟨n, rfl⟩ := h1 (Decidable.not_not.mp h0)
  rw [wp_bind]
  refine post_mono (getRawReply_last _) fun code s2 h2 => ?_
  refine (wp_ite ..).mpr ⟨fun hne hc => ?_, fun _ => ?_⟩
  · obtain ⟨evs, h3, h4⟩ := h2 hne
    exact ⟨n, evs, by rw [h3]; simp [St.snoc], h4⟩
  · rw [wp_bind]
    refine wp_mono (cleanup_after (s := s2) (Ended.refl s2)) (fun _ _ _ h => absurd h.symm hvt) (fun _ _ _ => trivial)

/-- Without a TLS connection, `getServerReply` of the secure clients has nothing to read from. -/
theorem waitLoop_none (n : Nat) (s : St) (hb : s.client.bio = none) : post env (waitLoop bioRead n) (fun r _ => r = none) s := by
  induction n generalizing s with
  | zero =>
    unfold waitLoop bioRead post
    simp only [wp_bind, wp_gets, hb, wp_pure]
  | succ n ih =>
    unfold waitLoop
    conv => arg 2; unfold bioRead
    unfold post sysSleep
    simp only [wp_bind, wp_gets, hb, wp_pure, wp_emit]
    exact ih _ hb

theorem getServerReply_none (s : St) (hk : s.client.kind ≠ .smtp) (hb : s.client.bio = none) : post env getServerReply (fun code _ => code = -1) s := by
  unfold getServerReply getTlsReply post
  simp only [wp_bind, wp_gets, wp_ite]
  refine ⟨fun h => absurd (by simpa using h) hk, fun _ => ?_⟩
  refine post_mono (waitLoop_none _ s hb) ?_
  rintro r s1 rfl
  rfl

theorem ehloLoop_none (tc : Int) (n : Nat) (opts : Bytes) (s : St) (hk : s.client.kind ≠ .smtp) (hb : s.client.bio = none) :
    post env (ehloLoop tc n opts) (fun r s' => r = .inl tc ∨ s' = s ∧ ∃ o, r = .inr o) s := by
  cases n with
  | zero => trivial
  | succ n =>
    unfold ehloLoop post
    rw [wp_ite]
    refine ⟨fun _ => .inr ⟨rfl, _, rfl⟩, fun _ => ?_⟩
    rw [wp_bind]
    refine post_mono (getServerReply_none s hk hb) ?_
    rintro code s1 rfl
    exact (wp_ite ..).mpr ⟨fun _ => .inl rfl, fun h => absurd rfl h⟩

/-- EHLO in clear by a secure client: the answer is one reply, and it is kept as the last response. -/
theorem identify_last (e t : Int) (he : e ≠ 0) (he' : 250 ≠ e) (ht' : 250 ≠ t) (s : St) (hk : s.client.kind ≠ .smtp) (hb : s.client.bio = none) :
    post env (identify e t) (fun code s' => code = 250 → SameConn s.client s'.client ∧
      ∃ n reply, s'.hist = s.hist ++ .send .cmd (.raw s.client.sock) b!"ehlo localhost\r\n" (.sent n) :: reply ∧
        OneReply (.raw s.client.sock) 250 reply ∧ s'.client.lastResponse = some (heard reply)) s := by
  unfold identify post
  rw [wp_bind]
  refine wp_mono (addLog_keeps _ _ s) ?_ (fun _ _ _ => trivial)
  rintro _ s1 ⟨l, e1⟩
  have c1 : SameConn s.client s1.client := by rw [e1]; rfl
  have h1 : s1.hist = s.hist := by rw [e1]
  rw [wp_bind]
  unfold sendFb
  rw [wp_bind, wp_gets, wp_bind, wp_gets, if_pos (by rw [c1.bio, hb]; simp)]
  refine post_mono (post_and (sendRawFb_took _ e t 250 he he' ht' s1) (sendRawFb_last _ e t 250 he he' ht' s1)) fun code s2 ⟨h2, h2'⟩ => ?_
  rw [wp_ite]
  refine ⟨fun h h' => absurd h' h, fun h => ?_⟩
  obtain ⟨c2, n, evs, h2, r2⟩ := h2 (Decidable.not_not.mp h)
  obtain ⟨n', evs', h2', l2⟩ := h2' (Decidable.not_not.mp h)
  obtain ⟨rfl, rfl⟩ : n = n' ∧ evs = evs' := by
    have := List.append_cancel_left (h2.symm.trans h2')
    simp only [List.cons.injEq, Ev.send.injEq, SendRes.sent.injEq, true_and] at this
    exact this
  unfold lastResponseText
  rw [wp_bind, wp_bind, wp_gets, l2]
  dsimp only
  rw [wp_pure, wp_bind, wp_env, wp_bind]
  refine post_mono (ehloLoop_none t _ _ s2 (by rw [c2.kind, c1.kind]; exact hk) (by rw [c2.bio, c1.bio]; exact hb)) ?_
  rintro x s3 (rfl | ⟨rfl, o, rfl⟩)
  · exact fun h => absurd h.symm ht'
  dsimp only
  rw [wp_bind]
  unfold setAuthOptions
  rw [wp_modifyMem, wp_pure]
  intro _
  rw [c1.sock] at h2 r2
  refine ⟨(c1.trans c2).trans rfl, n, evs, ?_, r2, l2⟩
  show s3.hist = _
  rw [h2, h1]
  have : cstr ehloCmd = b!"ehlo localhost\r\n" := by decide
  rw [this]

end Verif.Proofs
