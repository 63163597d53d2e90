import Verif.Proofs.Ends
import Verif.Proofs.Close
/-!
# Keeping one connection
-/
namespace Verif.Proofs
open Verif Verif.Model Verif.Spec

variable {α : Type} {env : Env}

/-- An event that neither opens nor closes a connection nor says goodbye. -/
def KeepEv : Ev → Prop
  | .socket _ => False
  | .close _ => False
  | .bioFree _ => False
  | .send .quit _ _ _ => False
  | _ => True

theorem quiet_keep {e : Ev} (h : QuietEv e) : KeepEv e := by cases e <;> simp_all [QuietEv, DeafEv, KeepEv]

/-- The connection is the same. -/
def Kept (s s' : St) : Prop := SameConn s.client s'.client ∧ NewEvents KeepEv s s'

theorem Kept.refl (s : St) : Kept s s := ⟨rfl, .same rfl⟩
theorem Kept.trans {a b c : St} (h : Kept a b) (h' : Kept b c) : Kept a c := ⟨h.1.trans h'.1, h.2.trans h'.2⟩
theorem Kept.ext {a b : St} (h : Kept a b) : Ext a b := by obtain ⟨_, e, h, _⟩ := h; exact ⟨e, h⟩
theorem Quiet.kept {a b : St} (h : Quiet a b) : Kept a b := ⟨h.1, h.2.mono fun _ => quiet_keep⟩

instance : Reading Kept where
  refl := .refl
  trans := .trans
  log := fun _ _ _ _ _ _ _ => ⟨rfl, .same rfl⟩
  errno := fun _ _ => ⟨rfl, .same rfl⟩
  resp := fun _ _ => ⟨rfl, .same rfl⟩
  auth := fun _ _ => ⟨rfl, .same rfl⟩
  fcntlGet := fun _ _ _ => ⟨rfl, .one trivial⟩
  fcntlSet := fun _ _ _ _ => ⟨rfl, .one trivial⟩
  select := fun _ _ _ => ⟨rfl, .one trivial⟩
  sockopt := fun _ _ _ => ⟨rfl, .one trivial⟩
  resolve := fun _ _ _ => ⟨rfl, .one trivial⟩
  connect := fun _ _ _ _ => ⟨rfl, .one trivial⟩
  sleep := fun _ => ⟨rfl, .one trivial⟩
  recv := fun _ _ _ => ⟨rfl, .one trivial⟩

theorem Replied.kept {d : Bytes} {code : Int} {s s' : St} (h : Replied d code s s') : Kept s s' := by
  obtain ⟨n, t, h, _⟩ := h
  have : Kept s (St.snoc s (.send .cmd (chan s.client) (cstr d) (.sent n))) := ⟨rfl, .one trivial⟩
  exact this.trans h.quiet.kept

/-- The same connection, or none. -/
def KeptOrDead (s s' : St) : Prop := Kept s s' ∨ Dead s'.client

instance : Preord KeptOrDead where
  refl := fun s => .inl (.refl s)
  trans := by
    rintro a b c h (h' | h')
    · rcases h with h | h
      · exact .inl (h.trans h')
      · exact .inr (h.same h'.1)
    · exact .inr h'

instance : Exchanging env KeptOrDead where
  log := fun s _ _ _ l' _ _ => .inl ⟨rfl, .same rfl⟩
  errno := fun _ _ => .inl ⟨rfl, .same rfl⟩
  resp := fun _ _ => .inl ⟨rfl, .same rfl⟩
  auth := fun _ _ => .inl ⟨rfl, .same rfl⟩
  fcntlGet := fun _ _ _ => .inl ⟨rfl, .one trivial⟩
  fcntlSet := fun _ _ _ _ => .inl ⟨rfl, .one trivial⟩
  select := fun _ _ _ => .inl ⟨rfl, .one trivial⟩
  sockopt := fun _ _ _ => .inl ⟨rfl, .one trivial⟩
  resolve := fun _ _ _ => .inl ⟨rfl, .one trivial⟩
  connect := fun _ _ _ _ => .inl ⟨rfl, .one trivial⟩
  readFile := fun _ _ _ => .inl ⟨rfl, .one trivial⟩
  command := fun d e t he => ⟨fun s => wp_mono (sendPtrFb_out d e t s he)
    (fun _ _ h => h.elim (fun h => .inl h.kept) (fun h => .inr h.2.1)) (fun _ _ _ => trivial)⟩
  content := fun d e => ⟨fun s => wp_mono (sendPtr_out .content d e s)
    (fun _ _ h => h.elim (fun ⟨_, n, h⟩ => .inl (by rw [h]; exact ⟨rfl, .one trivial⟩)) (fun h => .inr h.2.1)) (fun _ _ _ => trivial)⟩

/-- Something was written to descriptor 0. -/
def Wrote (s s' : St) : Prop := ∃ evs, s'.hist = s.hist ++ evs ∧ WroteToZero evs

theorem Wrote.after {a b c : St} (h : Ext a b) (h' : Wrote b c) : Wrote a c := by
  obtain ⟨x, hx⟩ := h
  obtain ⟨y, hy, h'⟩ := h'
  refine ⟨x ++ y, by rw [hy, hx, List.append_assoc], ?_⟩
  have := wroteToZero_mono (a := x) (c := []) h'
  simpa using this
theorem Wrote.before {a b c : St} (h : Wrote a b) (h' : Ext b c) : Wrote a c := by
  obtain ⟨x, hx, h⟩ := h
  obtain ⟨y, hy⟩ := h'
  refine ⟨x ++ y, by rw [hy, hx, List.append_assoc], ?_⟩
  have := wroteToZero_mono (a := []) (c := y) h
  simpa using this

theorem Replied.wrote {d : Bytes} {code : Int} {s s' : St} (h : Replied d code s s') (hd : Dead s.client) : Wrote s s' := by
  obtain ⟨n, t, h, _⟩ := h
  refine Wrote.before ⟨_, rfl, ?_⟩ h.quiet.kept.ext
  exact ⟨.cmd, cstr d, n, by rw [hd.chan]; simp⟩

/-- The goodbye at the end of a session outside batch mode. -/
def Goodbye (s s' : St) : Prop :=
  ∃ mid n, s'.hist = s.hist ++ mid ++ [.send .quit (chan s.client) quitCmd (.sent n)] ++ closingEvs s.client ∧ (∀ e ∈ mid, KeepEv e) ∧ Dead s'.client

theorem closingEvs_same {c c' : Client} (h : SameConn c c') : closingEvs c' = closingEvs c := by
  unfold SameConn at h; rw [h]; rfl

/-- How a successful transmission ends. -/
def MailEnd (s s' : St) : Prop :=
  Wrote s s' ∨ if s.client.batch then Kept s s' else Ans endOfData 0 s s' ∨ Goodbye s s'

theorem cstr_endOfData : cstr endOfData = endOfData := by decide
theorem cstr_quit : cstr quitCmd = quitCmd := by decide

/-- QUIT was sent and nothing closed yet. -/
def QuitSaid (s s' : St) : Prop :=
  SameConn s.client s'.client ∧ ∃ mid n, s'.hist = s.hist ++ mid ++ [.send .quit (chan s.client) quitCmd (.sent n)] ∧ (∀ e ∈ mid, KeepEv e)

/-- Where a successful `setMailBody` ends. -/
def BodyEnd (s s' : St) : Prop :=
  Wrote s s' ∨ if s.client.batch then Kept s s' else Ans endOfData 0 s s' ∨ QuitSaid s s'

theorem sendQuit_said (s0 s : St) (h : Kept s0 s) : post env sendQuit (fun code s' => code = 0 → QuitSaid s0 s') s := by
  unfold sendQuit sendQuitWith post
  rw [wp_bind]
  refine post_mono (post_steps (R := Kept) (addLog_steps _ _) s) fun _ s1 h1 => ?_
  refine post_mono (wp_mono (sendPtr_out .quit quitCmd (-99) s1) (fun _ _ h => h) (fun _ _ _ => trivial)) fun code s2 h2 hc => ?_
  obtain ⟨hc1, evs, he, hk⟩ := h.trans h1
  rcases h2 with ⟨_, n, h2⟩ | ⟨h2, _⟩
  · subst h2
    refine ⟨hc1, evs, n, ?_, hk⟩
    show s1.hist ++ _ = _
    rw [he, chan_same hc1, cstr_quit]
  · rw [h2] at hc
    exact absurd hc (by decide)

theorem setMailBody_end (m : Message) (s0 s : St) (h : KeptOrDead s0 s) (hx : Ext s0 s) :
    post env (setMailBody m) (fun code s' => code = 0 → BodyEnd s0 s') s := by
  unfold setMailBody post
  have go : ∀ {β : Type} {n : M β} {f : β → M Int} {s : St} {Q : Int → St → Prop}, Ends env KeptOrDead n → Steps env Ext n → KeptOrDead s0 s → Ext s0 s →
      (∀ b s', KeptOrDead s0 s' → Ext s0 s' → post env (f b) Q s') → post env (n >>= f) Q s := by
    intro β n f s Q h1 h2 h3 h4 h5
    unfold post
    rw [wp_bind]
    exact post_mono (post_and (h1.run s) (post_steps h2 s)) fun b s' h => h5 b s' (Preord.trans h3 h.1) (h4.trans h.2)
  refine go (addLog_finishes _ _) (addLog_steps _ _) h hx fun _ s1 h hx => ?_
  refine go (fullBody_finishes _) (fullBody_steps _) h hx fun body s1 h hx => ?_
  refine go (sendBodyText_finishes _) (by unfold sendBodyText; steps [sendPieces_steps, sendPtr_steps']) h hx fun code s1 h hx => ?_
  refine (wp_ite ..).mpr ⟨fun h hc => absurd hc h, fun _ => ?_⟩
  refine go (addLog_finishes _ _) (addLog_steps _ _) h hx fun _ s1 h hx => ?_
  unfold post
  rw [wp_bind]
  refine post_mono (post_and (wp_mono (sendPtrFb_out endOfData (-97) (-98) s1 (by decide)) (fun _ _ h => h) (fun _ _ _ => trivial))
    (post_steps (R := Ext) (sendPtrFb_steps' endOfData (-97) (-98)) s1)) fun code s2 ⟨h2, x2⟩ => ?_
  rcases h2 with h2 | ⟨hc, _⟩
  · rcases h with h | h
    · have k2 := h.trans h2.kept
      have hb2 : s2.client.batch = s0.client.batch := by have := k2.1; unfold SameConn at this; rw [this]
      refine (wp_ite ..).mpr ⟨fun _ hc => .inr ?_, fun _ => ?_⟩
      · split
        · exact k2
        · rw [hc] at h2
          exact .inl (cstr_endOfData ▸ h2.ans.after h.ext)
      · rw [wp_bind, wp_gets, hb2]
        refine (wp_ite ..).mpr ⟨fun hb _ => .inr ?_, fun hb => ?_⟩
        · rw [if_pos hb]; exact k2
        · rw [wp_bind]
          refine post_mono (sendQuit_said s0 s2 k2) fun code s3 h3 => ?_
          refine (wp_ite ..).mpr ⟨fun h hc => absurd hc h, fun hc _ => .inr ?_⟩
          rw [if_neg hb]
          exact .inr (h3 (Decidable.not_not.mp hc))
    · have w : Wrote s0 s2 := (h2.wrote h).after hx
      refine post_mono (post_steps (R := Ext) ?_ s2) fun _ s3 h3 _ => .inl (w.before h3)
      steps [sendQuit_steps]
  · refine (wp_ite ..).mpr ⟨fun _ h => ?_, fun h => ?_⟩ <;> rcases hc with rfl | rfl <;> exact absurd h (by decide)

theorem closeSession_goodbye {s0 s s' : St} (h : QuitSaid s0 s) (hr : closeSession env s = (.ok (), s')) : Goodbye s0 s' := by
  obtain ⟨hc, mid, n, he, hk⟩ := h
  have := closeSession_out (env := env) s
  unfold wp at this
  rw [hr] at this
  rw [closeSession_run] at hr
  cases hr
  exact ⟨mid, n, by rw [he, closingEvs_same hc], hk, this.2⟩

theorem cleanup_goodbye {s0 s : St} (h : QuitSaid s0 s) (hb : s0.client.batch = false) : post env cleanup (fun _ s' => Goodbye s0 s') s := by
  have hb1 : s.client.batch = false := by have := h.1; unfold SameConn at this; rw [this]; exact hb
  unfold cleanup post
  rw [wp_bind, wp_env]
  cases env.depth with
  | zero => trivial
  | succ k =>
    unfold cleanupN
    simp only [wp_bind, wp_gets, wp_ite]
    refine ⟨fun h => absurd h (by simp [hb1]), fun _ => ?_⟩
    unfold wp
    rw [closeSession_run]
    exact closeSession_goodbye (env := env) h (closeSession_run s)

theorem sendMailRest_end (m : Message) (s0 s : St) (h : KeptOrDead s0 s) (hx : Ext s0 s) :
    post env (sendMailRest m) (fun code s' => code = 0 → MailEnd s0 s') s := by
  unfold sendMailRest post
  rw [wp_bind]
  refine post_mono (post_and ((setMailHeaders_finishes (R := KeptOrDead) m).run s) (post_steps (R := Ext) (setMailHeaders_steps m) s)) fun code s1 h1 => ?_
  refine (wp_ite ..).mpr ⟨fun h hc => absurd hc h, fun _ => ?_⟩
  rw [wp_bind]
  refine post_mono (setMailBody_end m s0 s1 (Preord.trans h h1.1) (hx.trans h1.2)) fun code s2 h2 => ?_
  refine (wp_ite ..).mpr ⟨fun h hc => absurd hc h, fun hc => ?_⟩
  rcases h2 (Decidable.not_not.mp hc) with h2 | h2
  · refine post_mono (post_steps (R := Ext) ?_ s2) fun _ s3 h3 _ => .inl (h2.before h3)
    steps [cleanup_steps]
  · rw [wp_bind, wp_gets]
    split at h2
    · rename_i hb
      have hb2 : s2.client.batch = s0.client.batch := by have := h2.1; unfold SameConn at this; rw [this]
      refine (wp_ite ..).mpr ⟨fun _ _ => .inr (by rw [if_pos hb]; exact h2), fun h => absurd (hb2.trans hb) h⟩
    · rename_i hb
      rcases h2 with h2 | h2
      · refine post_mono (post_steps (R := Ext) ?_ s2) fun _ s3 h3 _ => .inr (by rw [if_neg hb]; exact .inl (h2.before h3))
        steps [cleanup_steps]
      · have hb2 : s2.client.batch = s0.client.batch := by have := h2.1; unfold SameConn at this; rw [this]
        refine (wp_ite ..).mpr ⟨fun h => absurd (hb2.symm.trans h) hb, fun _ => ?_⟩
        rw [wp_bind]
        exact post_mono (cleanup_goodbye h2 (by simpa using hb)) fun _ s3 h3 _ => .inr (by rw [if_neg hb]; exact .inr h3)

/-- **The end of a successful transmission.** -/
theorem sendMailConnected_end (m : Message) (s : St) :
    post env (sendMailConnected m) (fun code s' => code = 0 → MailEnd { s with client := { s.client with isConnected := true } } s') s := by
  unfold sendMailConnected post
  rw [wp_bind, wp_modify, wp_bind]
  refine post_mono (post_and ((setMailRecipients_finishes (R := KeptOrDead) m).run _) (post_steps (R := Ext) (setMailRecipients_steps m) _)) fun code s1 h1 => ?_
  exact (wp_ite ..).mpr ⟨fun h hc => absurd hc h, fun _ => sendMailRest_end m _ s1 h1.1 h1.2⟩

/-! ### Opening it -/

/-- The socket is the same, and nothing was opened or closed. -/
def Fine (s s' : St) : Prop :=
  s'.client.sock = s.client.sock ∧ s'.client.batch = s.client.batch ∧ s'.client.kind = s.client.kind ∧ NewEvents KeepEv s s'

instance : Reading Fine where
  refl := fun _ => ⟨rfl, rfl, rfl, .same rfl⟩
  trans := fun h h' => ⟨h'.1.trans h.1, h'.2.1.trans h.2.1, h'.2.2.1.trans h.2.2.1, h.2.2.2.trans h'.2.2.2⟩
  log := fun _ _ _ _ _ _ _ => ⟨rfl, rfl, rfl, .same rfl⟩
  errno := fun _ _ => ⟨rfl, rfl, rfl, .same rfl⟩
  resp := fun _ _ => ⟨rfl, rfl, rfl, .same rfl⟩
  auth := fun _ _ => ⟨rfl, rfl, rfl, .same rfl⟩
  fcntlGet := fun _ _ _ => ⟨rfl, rfl, rfl, .one trivial⟩
  fcntlSet := fun _ _ _ _ => ⟨rfl, rfl, rfl, .one trivial⟩
  select := fun _ _ _ => ⟨rfl, rfl, rfl, .one trivial⟩
  sockopt := fun _ _ _ => ⟨rfl, rfl, rfl, .one trivial⟩
  resolve := fun _ _ _ => ⟨rfl, rfl, rfl, .one trivial⟩
  connect := fun _ _ _ _ => ⟨rfl, rfl, rfl, .one trivial⟩
  sleep := fun _ => ⟨rfl, rfl, rfl, .one trivial⟩
  recv := fun _ _ _ => ⟨rfl, rfl, rfl, .one trivial⟩

theorem Kept.fine {s s' : St} (h : Kept s s') : Fine s s' := by
  have h1 := h.1
  unfold SameConn at h1
  exact ⟨by rw [h1], by rw [h1], by rw [h1], h.2⟩

/-- Either all is fine, or the code is negative. -/
structure Good (env : Env) (m : M Int) : Prop where
  run : ∀ s, post env m (fun c s' => Fine s s' ∨ c < 0) s

/-- The code is negative. -/
structure Neg (env : Env) (m : M Int) : Prop where
  run : ∀ s, post env m (fun c _ => c < 0) s

theorem post_true {m : M α} (s : St) : post env m (fun _ _ => True) s := by
  unfold post wp
  split <;> trivial

theorem Neg.pure {c : Int} (h : c < 0) : Neg env (Pure.pure c) := ⟨fun _ => h⟩
theorem Neg.bind {m : M α} {f : α → M Int} (h : ∀ a, Neg env (f a)) : Neg env (m >>= f) := by
  constructor
  intro s
  unfold post
  rw [wp_bind]
  exact post_mono (post_true s) fun a s1 _ => (h a).run s1

namespace Good
variable {ok : Int} {m r : M Int} {f : α → M Int}

theorem of_steps (h : Steps env Fine m) : Good env m := ⟨fun s => post_mono (post_steps h s) fun _ _ => .inl⟩
theorem of_neg (h : Neg env m) : Good env m := ⟨fun s => post_mono (h.run s) fun _ _ => .inr⟩
theorem pure (c : Int) : Good env (Pure.pure c) := .of_steps (.pure c)
theorem stop (e : Stop) : Good env (M.stop e) := ⟨fun _ => trivial⟩

theorem pre {m : M α} (h : Steps env Fine m) (hf : ∀ a, Good env (f a)) : Good env (m >>= f) := by
  constructor
  intro s
  unfold post
  rw [wp_bind]
  exact post_mono (post_steps h s) fun a s1 h1 => post_mono ((hf a).run s1) fun c s2 h2 => h2.imp (Preord.trans h1) id

theorem ite {c : Prop} [Decidable c] {a b : M Int} (ha : Good env a) (hb : Good env b) : Good env (if c then a else b) := by
  split <;> assumption

/-- After a step that must give `ok`. -/
theorem guard' {g : Int → M Int} (h : Good env m) (hr : Good env r) (hok : 0 ≤ ok) (hg : ∀ c, Good env (g c)) (hg' : ∀ c, c < 0 → Neg env (g c)) :
    Good env (do let code ← m; if code ≠ ok then g code else r) := by
  constructor
  intro s
  unfold post
  rw [wp_bind]
  refine post_mono (h.run s) fun c s1 h1 => ?_
  rw [wp_ite]
  rcases h1 with h1 | h1
  · exact ⟨fun _ => post_mono ((hg c).run s1) fun c s2 h2 => h2.imp (Preord.trans h1) id,
      fun _ => post_mono (hr.run s1) fun c s2 h2 => h2.imp (Preord.trans h1) id⟩
  · exact ⟨fun _ => post_mono ((hg' c h1).run s1) fun _ _ => .inr, fun hc => by omega⟩

theorem guard (h : Good env m) (hr : Good env r) (hok : 0 ≤ ok) : Good env (do let code ← m; if code ≠ ok then Pure.pure code else r) :=
  guard' h hr hok (fun c => .pure c) fun _ h => .pure h
end Good

theorem sendPtrFb_good (d e t) (he : e < 0) (ht : t < 0) : Good env (sendPtrFb d e t) := by
  constructor
  intro s
  refine wp_mono (sendPtrFb_out d e t s (by omega)) ?_ (fun _ _ _ => trivial)
  rintro c s' (h | ⟨h, _⟩)
  · exact .inl h.kept.fine
  · exact .inr (by rcases h with h | h <;> omega)

theorem reply_good {m : M Int} (hm : Steps env Kept m) (t : Int) (ht : t < 0) : Good env (do
    let code ← m
    if code ≠ -1 then pure code else do
      cleanup
      pure t : M Int) := by
  constructor
  intro s
  unfold post
  rw [wp_bind]
  refine post_mono (post_steps hm s) fun c s1 h1 => ?_
  rw [wp_ite]
  refine ⟨fun _ => .inl h1.fine, fun _ => ?_⟩
  exact post_mono ((Neg.bind fun _ => .pure ht : Neg env (cleanup >>= fun _ => pure t)).run s1) fun _ _ => .inr

theorem sendRaw_good (d e) (he : e < 0) : Good env (sendRaw .cmd d e) := by
  unfold sendRaw sendRawWith
  refine .pre (.gets _) fun _ => ?_
  constructor
  intro s
  unfold post
  rw [wp_bind]
  refine wp_mono (sysSend_out _ _ _ s) ?_ (fun _ _ _ => trivial)
  rintro r s1 ⟨_, rfl⟩
  cases r with
  | fail e' => exact post_mono ((Neg.bind fun _ => .bind fun _ => .pure he : Neg env (do setErrNo e'; cleanup; pure e)).run _) fun _ _ => .inr
  | _ => exact .inl ⟨rfl, rfl, rfl, .one trivial⟩

theorem sendBio_good (d e) (he : e < 0) : Good env (sendBioWith cleanup .cmd d e) := by
  unfold sendBioWith
  refine .pre (.gets _) fun b => ?_
  cases b with
  | none => exact .of_neg (.bind fun _ => .bind fun _ => .bind fun _ => .pure he)
  | some b =>
    constructor
    intro s
    unfold post
    dsimp only
    rw [wp_bind]
    refine wp_mono (sysSend_out _ _ _ s) ?_ (fun _ _ _ => trivial)
    rintro r s1 ⟨_, rfl⟩
    cases r with
    | fail e' => exact post_mono ((Neg.bind fun _ => .bind fun _ => .bind fun _ => .pure he : Neg env (do setErrNo (← M.ask' (·.tlsErr)); cleanup; pure e)).run _) fun _ _ => .inr
    | _ => exact .inl ⟨rfl, rfl, rfl, .one trivial⟩

theorem sendRawFb_good (d e t) (he : e < 0) (ht : t < 0) : Good env (sendRawFb d e t) := by
  unfold sendRawFb
  exact .guard' (sendRaw_good d e he) (reply_good getRawReply_steps t ht) (by decide) (fun _ => .pure e) fun _ _ => .pure he

theorem sendTlsFb_good (d e t) (he : e < 0) (ht : t < 0) : Good env (sendTlsFb d e t) := by
  unfold sendTlsFb
  exact .guard' (sendBio_good d e he) (reply_good getTlsReply_steps t ht) (by decide) (fun _ => .pure e) fun _ _ => .pure he

theorem sendFb_good (d e t) (he : e < 0) (ht : t < 0) : Good env (sendFb d e t) := by
  unfold sendFb
  exact .pre (.gets _) fun _ => .pre (.gets _) fun _ => .ite (sendRawFb_good d e t he ht) (sendTlsFb_good d e t he ht)

theorem identify_good (e t) (he : e < 0) (ht : t < 0) : Good env (identify e t) := by
  unfold identify
  refine .pre (addLog_steps _ _) fun _ => .guard (sendFb_good _ e t he ht) (.of_steps ?_) (by decide)
  steps [ehloLoop_steps, setAuthOptions_steps]
  unfold lastResponseText
  steps []

theorem sysTls_fine (op) : Steps env Fine (sysTls op) := .ask fun _ _ => ⟨rfl, rfl, rfl, .one trivial⟩

theorem startTLS_good : Good env startTLSNegotiation := by
  unfold startTLSNegotiation
  have neg : ∀ {m : M Int}, Neg env m → Good env m := fun h => .of_neg h
  refine .pre (addLog_steps _ _) fun _ => .pre (sysTls_fine _) fun _ => .ite (.pre (.modify fun s => ⟨rfl, rfl, rfl, .same rfl⟩) fun _ => .of_neg (.bind fun _ => .bind fun _ => .pure (by decide))) ?_
  refine .pre (.modify fun s => ⟨rfl, rfl, rfl, .same rfl⟩) fun _ => .pre .histLength fun id => .pre (sysTls_fine _) fun _ => ?_
  refine .ite (.of_neg (.bind fun _ => .pure (by decide))) (.pre (.gets _) fun _ => .pre (.modify fun s => ⟨rfl, rfl, rfl, .same rfl⟩) fun _ => .pre (.gets _) fun name => ?_)
  cases name with
  | none => exact .stop _
  | some name =>
    refine .pre (.gets _) fun _ => .ite (.stop _) (.pre (sysTls_fine _) fun _ => .ite (.of_neg (.pure (by decide))) (.pre (sysTls_fine _) fun _ => ?_))
    refine .ite (.of_neg (.bind fun _ => .bind fun _ => .bind fun _ => .pure (by decide))) (.pre (addLog_steps _ _) fun _ => .pre (sysTls_fine _) fun _ => ?_)
    refine .ite (.of_neg (.bind fun _ => .bind fun _ => .bind fun _ => .pure (by decide))) (.pre (addLog_steps _ _) fun _ => .pre (sysTls_fine _) fun _ => ?_)
    refine .ite (.of_neg (.bind fun _ => .pure (by decide))) (.pre (sysTls_fine _) fun _ => .pre (.gets _) fun _ => ?_)
    refine .ite (.pre (addLog_steps _ _) fun _ => .pre (addLog_steps _ _) fun _ => .pure 0) ?_
    exact .ite (.of_neg (.bind fun _ => .bind fun _ => .bind fun _ => .pure (by decide))) (.pre (addLog_steps _ _) fun _ => .pure 0)

theorem authenticateClient_good : Good env authenticateClient := by
  unfold authenticateClient
  refine .pre (.gets _) fun c => ?_
  cases c with
  | none => exact .pure _
  | some c =>
    refine .pre (.gets _) fun o => ?_
    cases o with
    | none => exact .stop _
    | some o =>
      refine .ite ?_ (.ite ?_ (.ite ?_ (.pure _)))
      · exact .pre (addLog_steps _ _) fun _ => sendPtrFb_good _ _ _ (by decide) (by decide)
      · refine .pre (addLog_steps _ _) fun _ => .guard' (sendPtrFb_good _ _ _ (by decide) (by decide)) ?_ (by decide) (fun _ => .pure _) fun _ _ => .pure (by decide)
        exact .guard' (sendPtrFb_good _ _ _ (by decide) (by decide)) (sendPtrFb_good _ _ _ (by decide) (by decide)) (by decide) (fun _ => .pure _) fun _ _ => .pure (by decide)
      · exact .pre (addLog_steps _ _) fun _ => sendPtrFb_good _ _ _ (by decide) (by decide)

theorem authenticateIfNeeded_good : Good env authenticateIfNeeded := by
  unfold authenticateIfNeeded
  exact .pre (.gets _) fun _ => .ite (.guard authenticateClient_good (.pure 0) (by decide)) (.pure 0)

theorem checkServerGreetings_fine : Steps env Fine checkServerGreetings := checkServerGreetings_steps

theorem secureIdent_good : Good env getServerSecureIdentification := by
  unfold getServerSecureIdentification
  exact .pre (addLog_steps _ _) fun _ => identify_good _ _ (by decide) (by decide)

theorem establishOpportunistic_good : Good env establishOpportunistic := by
  unfold establishOpportunistic
  refine .pre (.gets _) fun r => ?_
  split
  · exact .stop _
  · refine .pre (addLog_steps _ _) fun _ => .guard ?_ (.guard startTLS_good (.guard secureIdent_good authenticateIfNeeded_good (by decide)) (by decide)) (by decide)
    unfold upgradeToSecureConnection
    exact .pre (addLog_steps _ _) fun _ => sendRawFb_good _ _ _ (by decide) (by decide)
  · exact .pre (addLog_steps _ _) fun _ => .pre (.modify fun s => ⟨rfl, rfl, rfl, .same rfl⟩) fun _ => .pure 0

theorem establishForced_good : Good env establishForced := by
  unfold establishForced
  exact .guard startTLS_good (.guard (.of_steps checkServerGreetings_fine) (.guard secureIdent_good authenticateIfNeeded_good (by decide)) (by decide)) (by decide)

theorem establishGreeted_good {r : M Int} (h : Good env r) : Good env (establishGreeted r) := by
  unfold establishGreeted sendServerIdentification
  exact .guard (.of_steps checkServerGreetings_fine) (.guard (identify_good _ _ (by decide) (by decide)) h (by decide)) (by decide)

/-- The connection was opened on this socket. -/
def OpenedOn (s : St) (fd : Nat) (s' : St) : Prop :=
  s'.client.sock = fd ∧ s'.client.batch = s.client.batch ∧ s'.client.kind = s.client.kind ∧
    ∃ evs, s'.hist = s.hist ++ .socket (.val fd) :: evs ∧ ∀ e ∈ evs, KeepEv e

theorem OpenedOn.fine {s s1 s2 : St} {fd : Nat} (h : OpenedOn s fd s1) (h' : Fine s1 s2) : OpenedOn s fd s2 := by
  obtain ⟨h1, h2, h3, e, h4, h5⟩ := h
  obtain ⟨k1, k2, k3, e', k4, k5⟩ := h'
  exact ⟨k1.trans h1, k2.trans h2, k3.trans h3, e ++ e', by rw [k4, h4]; simp, fun x hx => (List.mem_append.mp hx).elim (h5 x) (k5 x)⟩

theorem initializePOSIX_opened (s : St) : post env initializePOSIX (fun c s' => (∃ fd, OpenedOn s fd s') ∨ c < 0) s := by
  unfold initializePOSIX sysSocket post
  rw [wp_bind, wp_ask]
  generalize env.socket s.hist = r
  cases r with
  | err e => exact post_mono ((Neg.bind fun _ => .bind fun _ => .pure (by decide) : Neg env (do M.modify ({ · with sock := -1 }); logErrno e; pure (-1))).run _) fun _ _ => .inr
  | val fd =>
    dsimp only
    rw [wp_bind, wp_modify]
    refine post_mono (post_steps (R := Fine) ?_ _) fun c s' h => .inl ⟨fd, OpenedOn.fine ?_ h⟩
    rotate_left
    · exact ⟨rfl, rfl, rfl, [], rfl, by simp⟩
    steps [sysResolve_steps, setNonBlocking_steps, addLog_steps, connectPOSIX_steps]

theorem establish_opened (s : St) : post env establish (fun c s' => (∃ fd, OpenedOn s fd s') ∨ c < 0) s := by
  unfold establish initializeSession post
  rw [wp_bind, wp_bind, wp_modifyMem]
  refine post_mono (initializePOSIX_opened _) fun c s1 h1 => ?_
  rw [wp_ite]
  refine ⟨fun _ => h1, fun hc => ?_⟩
  have h1 : ∃ fd, OpenedOn s fd s1 := h1.resolve_right (by omega)
  obtain ⟨fd, h1⟩ := h1
  have : Good env (do
      match ← M.gets (·.kind) with
      | .smtp => establishGreeted authenticateIfNeeded
      | .opportunistic => establishGreeted establishOpportunistic
      | .forced => establishForced : M Int) := by
    refine .pre (.gets _) fun k => ?_
    cases k with
    | smtp => exact establishGreeted_good authenticateIfNeeded_good
    | opportunistic => exact establishGreeted_good establishOpportunistic_good
    | forced => exact establishForced_good
  exact post_mono (this.run s1) fun c s2 h2 => h2.imp (fun h => ⟨fd, h1.fine h⟩) id

/-! ### Closing it in batch mode -/

/-- QUIT was sent, perhaps after some failures, and then the connection was closed. -/
def QuitAndClose (c : Client) (evs : Hist) : Prop :=
  ∃ (fails : List Int) (n : Nat), evs = fails.map (fun e => .send .quit (chan c) quitCmd (.fail e)) ++ [.send .quit (chan c) quitCmd (.sent n)] ++ closingEvs c

theorem addLog_hist (i p : Bytes) (s : St) : post env (addLog i p) (fun _ s' => s'.hist = s.hist) s := by
  unfold addLog post
  rw [wp_bind, wp_gets]
  cases s.client.log with
  | none => trivial
  | some l =>
    cases ha : l.add i p with
    | error u => simp only [ha]; trivial
    | ok l' => simp only [ha]; exact rfl

theorem closingEvs_dead {c : Client} (h : Dead c) : closingEvs c = [] := by
  unfold closingEvs
  rw [h.sock]
  by_cases hk : c.kind = .smtp
  · simp [hk]
  · simp [hk, h.bio hk]

theorem close_after {s0 s : St} (hc : SameConn s0.client s.client) :
    post env closeSession (fun _ s' => s'.hist = s.hist ++ closingEvs s0.client ∧ Dead s'.client) s := by
  have := closeSession_out (env := env) s
  unfold post wp at *
  rw [closeSession_run] at *
  exact ⟨by rw [closingEvs_same hc], this.2⟩

theorem cleanupN_batch (n : Nat) (s : St) (hb : s.client.batch = true) (hc : s.client.isConnected = true) :
    post env (cleanupN n) (fun _ s' => (∃ evs, s'.hist = s.hist ++ evs ∧ QuitAndClose s.client evs) ∧ Dead s'.client) s := by
  induction n generalizing s with
  | zero => trivial
  | succ n ih =>
    unfold cleanupN post
    simp only [wp_bind, wp_gets]
    refine (wp_ite ..).mpr ⟨fun _ => ?_, fun h => absurd (by rw [hb, hc]; rfl) h⟩
    rw [wp_bind]
    -- after QUIT was sent, or after a nested cleanup
    have fin : ∀ s1, ((SameConn s.client s1.client ∧ ∃ k, s1.hist = s.hist ++ [.send .quit (chan s.client) quitCmd (.sent k)]) ∨
        ((∃ evs, s1.hist = s.hist ++ evs ∧ QuitAndClose s.client evs) ∧ Dead s1.client)) →
        post env closeSession (fun _ s' => (∃ evs, s'.hist = s.hist ++ evs ∧ QuitAndClose s.client evs) ∧ Dead s'.client) s1 := by
      rintro s1 (⟨h1, k, h2⟩ | ⟨⟨evs, h1, h2⟩, hd⟩)
      · refine post_mono (close_after h1) fun _ s2 h3 => ⟨⟨[.send .quit (chan s.client) quitCmd (.sent k)] ++ closingEvs s.client, ?_, [], k, rfl⟩, h3.2⟩
        rw [h3.1, h2]; simp
      · refine post_mono (close_after (SameConn.refl _)) fun _ s2 h3 => ⟨⟨evs, ?_, h2⟩, h3.2⟩
        rw [h3.1, closingEvs_dead hd, h1, List.append_nil]
    -- a failed attempt
    have again : ∀ s1 w, SameConn s.client s1.client → (w = [] ∨ ∃ e, w = [.send .quit (chan s.client) quitCmd (.fail e)]) → s1.hist = s.hist ++ w →
        post env (cleanupN n) (fun _ s' => (∃ evs, s'.hist = s.hist ++ evs ∧ QuitAndClose s.client evs) ∧ Dead s'.client) s1 := by
      intro s1 w h1 hw h2
      have hb1 : s1.client.batch = true := by have := h1; unfold SameConn at this; rw [this]; exact hb
      have hc1 : s1.client.isConnected = true := by have := h1; unfold SameConn at this; rw [this]; exact hc
      refine post_mono (ih s1 hb1 hc1) ?_
      rintro _ s2 ⟨⟨evs, h3, fails, k, h4⟩, hd⟩
      refine ⟨⟨w ++ evs, by rw [h3, h2, List.append_assoc], ?_⟩, hd⟩
      rw [chan_same h1, closingEvs_same h1] at h4
      rcases hw with rfl | ⟨e, rfl⟩
      · exact ⟨fails, k, by simpa using h4⟩
      · exact ⟨e :: fails, k, by simp [h4]⟩
    unfold sendQuitWith
    rw [wp_bind]
    refine post_mono (post_and (post_deaf (addLog_steps _ _) s) (addLog_hist _ _ s)) fun _ s1 ⟨h1, e1⟩ => ?_
    have hs1 := h1.1
    unfold sendPtrWith
    simp only [wp_bind, wp_gets]
    refine (wp_ite ..).mpr ⟨fun hr => ?_, fun hr => ?_⟩
    · unfold sendRawWith
      have hch : chan s.client = .raw s1.client.sock := by
        rw [← chan_same hs1]; unfold chan; rw [if_pos hr]
      simp only [wp_bind, wp_gets]
      refine wp_mono (sysSend_out _ _ _ s1) ?_ (fun _ _ _ => trivial)
      rintro r s2 ⟨_, rfl⟩
      rw [← hch, cstr_quit] at *
      cases r with
      | never => contradiction
      | sent k => exact fin _ (.inl ⟨hs1, k, by rw [← e1]; rfl⟩)
      | fail e =>
        dsimp only
        unfold setErrNo
        rw [wp_bind, wp_modify, wp_bind]
        refine post_mono (again _ [.send .quit (chan s.client) quitCmd (.fail e)] ?_ (.inr ⟨e, rfl⟩) ?_) fun _ s3 h3 => fin _ (.inr h3)
        · exact hs1.trans rfl
        · rw [← e1]; rfl
    · unfold sendBioWith
      simp only [wp_bind, wp_gets]
      cases hbio : s1.client.bio with
      | none =>
        dsimp only
        unfold setErrNo
        rw [wp_bind, wp_ask', wp_bind, wp_modify, wp_bind]
        refine post_mono (again _ [] ?_ (.inl rfl) ?_) fun _ s3 h3 => fin _ (.inr h3)
        · exact hs1.trans rfl
        · rw [List.append_nil]; exact e1
      | some b =>
        have hch : chan s.client = .tls b.id b.fd := by
          rw [← chan_same hs1]; unfold chan; rw [if_neg hr, hbio]
        dsimp only
        rw [wp_bind]
        refine wp_mono (sysSend_out _ _ _ s1) ?_ (fun _ _ _ => trivial)
        rintro r s2 ⟨_, rfl⟩
        rw [← hch, cstr_quit] at *
        cases r with
        | never => contradiction
        | sent k => exact fin _ (.inl ⟨hs1, k, by rw [← e1]; rfl⟩)
        | fail e =>
          dsimp only
          unfold setErrNo
          rw [wp_bind, wp_ask', wp_bind, wp_modify, wp_bind]
          refine post_mono (again _ [.send .quit (chan s.client) quitCmd (.fail e)] ?_ (.inr ⟨e, rfl⟩) ?_) fun _ s3 h3 => fin _ (.inr h3)
          · exact hs1.trans rfl
          · rw [← e1]; rfl

theorem cleanup_batch (s : St) (hb : s.client.batch = true) (hc : s.client.isConnected = true) :
    post env cleanup (fun _ s' => (∃ evs, s'.hist = s.hist ++ evs ∧ QuitAndClose s.client evs) ∧ Dead s'.client) s := by
  unfold cleanup post
  rw [wp_bind, wp_env]
  exact cleanupN_batch _ s hb hc

end Verif.Proofs
