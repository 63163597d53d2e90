import Verif.Proofs.Speech
import Verif.Proofs.Twin
import Verif.Proofs.Whole
import Verif.Proofs.Blind
import Verif.Proofs.Asked
import Verif.Props.Log
import Verif.Props.Arrival
/-!
# Messages that differ in their blind copies
-/
namespace Verif.Proofs
open Verif Verif.Model Verif.Spec

variable {α : Type} {env : Env}

/-! ### Programs that do not depend on the blind copies -/

/-- The recipient lists before the last; the code when one failed. -/
def listsBefore : List (Arr MessageAddress) → M (Option Int)
  | [] => pure none
  | a :: rest =>
    if a.ptr.isNone then listsBefore rest
    else do
      let code ← addMailRecipients 250 (← arrElems a)
      if code ≠ 250 then pure (some code) else listsBefore rest

theorem M_bind_assoc {β γ : Type} (m : M α) (f : α → M β) (g : β → M γ) : (m >>= f) >>= g = m >>= fun a => f a >>= g := by
  funext env s
  simp only [bind_run]
  cases m env s with
  | mk r s1 => cases r <;> rfl

theorem M_pure_bind {β : Type} (a : α) (f : α → M β) : pure a >>= f = f a := rfl

theorem M_ite_bind {β : Type} {c : Prop} [Decidable c] (m n : M α) (f : α → M β) : (if c then m else n) >>= f = if c then m >>= f else n >>= f := by
  split <;> rfl

/-- What follows the recipients. -/
def finish (m : Message) (code : Int) : M Int := if code ≠ 0 then pure code else sendMailRest m

/-- How to go on after the lists before the last. -/
def lastList (l : List (Arr MessageAddress)) : Option Int → M Int
  | some c => pure c
  | none => recipientsLoop l

theorem recipientsLoop_append (l r : List (Arr MessageAddress)) : recipientsLoop (l ++ r) = listsBefore l >>= lastList r := by
  induction l with
  | nil => rfl
  | cons a l ih =>
    simp only [List.cons_append, recipientsLoop, listsBefore, M_ite_bind, M_bind_assoc, ih, M_pure_bind]
    rfl

/-- Everything before the blind copies: `none`, or how to go on when they are not looked at. -/
def commonConnected (m : Message) : M (Option (M Int)) := do
  M.modify ({ · with isConnected := true })
  let code ← mailFromLoop 0 (mailFormats m.from)
  if code ≠ 250 then pure (some (finish m code))
  else do
    let o ← listsBefore [m.to, m.cc]
    pure (o.map (finish m))

def common (m : Message) : M (Option (M Int)) := do
  if ← M.gets (·.isConnected) then commonConnected m
  else do
    let code ← establish
    if code ≠ 0 then pure (some (pure code)) else commonConnected m

/-- The blind copies and the rest. -/
def bccPart (m : Message) : M Int := recipientsLoop [m.bcc] >>= finish m

def goOn (m : Message) : Option (M Int) → M Int
  | some p => p
  | none => bccPart m

theorem sendMail_common (m : Message) : sendMail m = common m >>= goOn m := by
  have h : sendMailConnected m = commonConnected m >>= goOn m := by
    unfold sendMailConnected commonConnected setMailRecipients
    simp only [M_bind_assoc, M_ite_bind, M_pure_bind]
    congr 1
    funext _
    congr 1
    funext code
    split
    · rfl
    · rw [show [m.to, m.cc, m.bcc] = [m.to, m.cc] ++ [m.bcc] from rfl, recipientsLoop_append, M_bind_assoc]
      congr 1
      funext o
      cases o <;> rfl
  unfold sendMail common
  rw [h]
  simp only [M_bind_assoc, M_ite_bind, M_pure_bind]
  rfl

theorem finish_withoutBcc (m : Message) : finish m = finish (withoutBcc m) := rfl
theorem common_withoutBcc (m : Message) : common m = common (withoutBcc m) := rfl

/-! ### The two relations -/

/-- The connection is the same or gone. -/
def Held (s s' : St) : Prop := SameConn s.client s'.client ∨ Dead s'.client

instance : Whole Held where
  refl := fun _ => .inl rfl
  trans := by
    rintro a b c (h | h) (h' | h')
    · exact .inl (h.trans h')
    · exact .inr h'
    · exact .inr (h.same h')
    · exact .inr h'
  log := fun _ _ _ _ _ _ _ => .inl rfl
  errno := fun _ _ => .inl rfl
  resp := fun _ _ => .inl rfl
  auth := fun _ _ => .inl rfl
  fcntlGet := fun _ _ _ => .inl rfl
  fcntlSet := fun _ _ _ _ => .inl rfl
  select := fun _ _ _ => .inl rfl
  sockopt := fun _ _ _ => .inl rfl
  resolve := fun _ _ _ => .inl rfl
  connect := fun _ _ _ _ => .inl rfl
  sleep := fun _ => .inl rfl
  recv := fun _ _ _ => .inl rfl
  send := fun _ _ _ _ _ => .inl rfl
  closed := by
    intro s
    refine .inr ?_
    unfold closedClient
    dsimp only
    split
    · exact ⟨rfl, rfl, fun h => absurd ‹_› h⟩
    · exact ⟨rfl, rfl, fun _ => rfl⟩

theorem chan_dead {c : Client} (h : Dead c) : chan c = .raw 0 := by
  unfold chan
  split
  · rw [h.sock]
  · rename_i hk
    have : c.kind ≠ .smtp := by
      intro h; apply hk; simp [h]
    rw [h.bio this]
    simp [h.sock]

/-- Two states with the same connection in which the same happened after two histories. -/
structure After (h1 h2 : Hist) (s t : St) : Prop where
  conn : SameConn s.client t.client
  left : HasLog s
  right : HasLog t
  hist : ∃ e, s.hist = h1 ++ e ∧ t.hist = h2 ++ e

theorem After.get {h1 h2 : Hist} {s t : St} (h : After h1 h2 s t) {f : Client → α}
    (hf : ∀ c l n r a, f { c with log := l, lastErrNo := n, lastResponse := r, authOptions := a } = f c) : f s.client = f t.client := by
  have := h.conn
  unfold SameConn at this
  rw [this]
  exact (hf ..).symm

theorem After.modify {h1 h2 : Hist} {s t : St} (h : After h1 h2 s t) {f : Client → Client} (hc : SameConn (f s.client) (f t.client))
    (hl : ∀ c : Client, (f c).log = c.log) : After h1 h2 { s with client := f s.client } { t with client := f t.client } :=
  ⟨hc, by obtain ⟨l, h1, h2⟩ := h.left; exact ⟨l, (hl _).trans h1, h2⟩, by obtain ⟨l, h1, h2⟩ := h.right; exact ⟨l, (hl _).trans h1, h2⟩, h.hist⟩

theorem After.remem {h1 h2 : Hist} {s t : St} (h : After h1 h2 s t) (l l' : List SessionOp) : After h1 h2 { s with mem := l } { t with mem := l' } :=
  ⟨h.conn, h.left, h.right, h.hist⟩

theorem After.emit {h1 h2 : Hist} {s t : St} (h : After h1 h2 s t) (e : Ev) :
    After h1 h2 { s with hist := s.hist ++ [e] } { t with hist := t.hist ++ [e] } := by
  obtain ⟨x, hx, hy⟩ := h.hist
  exact ⟨h.conn, h.left, h.right, x ++ [e], by simp [hx], by simp [hy]⟩

theorem after_ask {h1 h2 : Hist} {f : Env → Hist → α} {ev : α → Ev} (h : ∀ e, f env (h1 ++ e) = f env (h2 ++ e)) :
    Twin env (After h1 h2) (M.ask f ev) (M.ask f ev) := by
  constructor
  intro s t hst
  obtain ⟨e, hx, hy⟩ := hst.hist
  have : f env s.hist = f env t.hist := by rw [hx, hy]; exact h e
  unfold M.ask
  dsimp only
  rw [this]
  exact ⟨rfl, hst.emit _⟩

theorem nonblocking_append {h h' : Hist} {fd : Int} (e : nonblocking fd h = nonblocking fd h') (x : Hist) :
    nonblocking fd (h ++ x) = nonblocking fd (h' ++ x) := by
  unfold nonblocking at *
  rw [List.foldl_append, List.foldl_append, e]

theorem after_alike {h1 h2 : Hist} (ha : AlikeFrom env h1 h2) : Alike env (fun _ d d' => d = d') (After h1 h2) where
  refl := fun _ _ => rfl
  kind := fun h => h.get fun _ _ _ _ _ => rfl
  sock := fun h => h.get fun _ _ _ _ _ => rfl
  ptrRaw := fun h => h.get fun _ _ _ _ _ => rfl
  bio := fun h => h.get fun _ _ _ _ _ => rfl
  batch := fun h => h.get fun _ _ _ _ _ => rfl
  isConnected := fun h => h.get fun _ _ _ _ _ => rfl
  timeout := fun h => h.get fun _ _ _ _ _ => rfl
  setConnected := fun b s t h => h.modify (f := ({ · with isConnected := b })) (by have := h.conn; unfold SameConn at *; rw [this]) (fun _ => rfl)
  setCtx := fun b s t h => h.modify (f := ({ · with ctx := b })) (by have := h.conn; unfold SameConn at *; rw [this]) (fun _ => rfl)
  setBio := fun b s t h => h.modify (f := ({ · with bio := b })) (by have := h.conn; unfold SameConn at *; rw [this]) (fun _ => rfl)
  setSock := fun b s t h => h.modify (f := ({ · with sock := b })) (by have := h.conn; unfold SameConn at *; rw [this]) (fun _ => rfl)
  setErr := fun b s t h => h.modify (f := ({ · with lastErrNo := b })) (by have := h.conn; unfold SameConn at *; rw [this]) (fun _ => rfl)
  setResp := fun b s t h =>
    (h.modify (f := ({ · with lastResponse := some b })) (by have := h.conn; unfold SameConn at *; rw [this]) (fun _ => rfl)).remem _ _
  addLog := by
    intro i p
    constructor
    intro s t h
    obtain ⟨l, _, hl, e⟩ := Props.addLog_run (env := env) h.left i p
    obtain ⟨l', _, hl', e'⟩ := Props.addLog_run (env := env) h.right i p
    rw [e, e']
    refine ⟨rfl, ?_, ⟨l, rfl, hl⟩, ⟨l', rfl, hl'⟩, h.hist⟩
    have := h.conn
    unfold SameConn at *
    show { t.client with log := some l' } = _
    rw [this]
  send := by
    rintro k c d _ rfl β f f' hf hs
    unfold sysSend
    rw [M_bind_assoc, M_bind_assoc]
    refine .bind (after_ask fun e => ?_) fun r => ?_
    · rw [ha.send, nonblocking_append (ha.blocking _)]
    · rw [M_ite_bind, M_ite_bind]
      cases r with
      | never => exact .stop _
      | fail e => exact hf e
      | sent n => exact hs n n
  recv := by
    intro c
    unfold sysRecv
    refine .bind (after_ask fun e => ?_) fun r => ?_
    · rw [ha.recv, nonblocking_append (ha.blocking _)]
    · exact .ite (.stop _) (.pure _)
  fcntlGet := fun fd => after_ask fun e => ha.fcntlGet e fd
  fcntlSet := fun fd b => after_ask fun e => ha.fcntlSet e fd b
  sleep := ⟨fun _ _ h => ⟨rfl, h.emit _⟩⟩
  close := fun _ => ⟨fun _ _ h => ⟨rfl, h.emit _⟩⟩
  bioFree := fun _ => ⟨fun _ _ h => ⟨rfl, h.emit _⟩⟩
  tlsErr := by
    constructor
    intro s t h
    obtain ⟨e, hx, hy⟩ := h.hist
    refine ⟨?_, h⟩
    show Res.ok (env.tlsErr s.hist) = Res.ok (env.tlsErr t.hist)
    rw [hx, hy, ha.tlsErr]
  readFile := fun n => after_ask fun e => ha.readFile e n

/-! ### Where MAIL FROM and DATA are said -/

/-- No MAIL FROM. -/
def noMail : Texts := fun _ k d => k = .cmd → b!"MAIL FROM".isPrefixOf d = false
/-- No DATA. -/
def noData : Texts := fun _ k d => k = .cmd → d ≠ b!"DATA\r\n"

theorem Saying.noMail {s s' : St} (h : Saying noMail s s') : NewEvents (fun e => isMail e = false) s s' := by
  refine h.2.mono fun e he => ?_
  cases e with
  | send k c d r =>
    cases k with
    | cmd => exact he rfl
    | _ => rfl
  | _ => rfl

theorem Saying.noData {s s' : St} (h : Saying noData s s') : NewEvents (fun e => isData e = false) s s' := by
  refine h.2.mono fun e he => ?_
  cases e with
  | send k c d r =>
    cases k with
    | cmd => simpa [isData] using he rfl
    | _ => rfl
  | _ => rfl

theorem establish_noMail : Steps env (Saying noMail) establish := by
  refine establish_saying ?_ (fun _ _ => by decide) (fun _ _ => by decide)
  intro cr d hd _
  simp only [List.mem_cons, List.not_mem_nil, or_false] at hd
  have login : ∀ t, b!"MAIL FROM".isPrefixOf (authLoginLine t) = false := by
    intro t
    have := visible_login t
    cases h : b!"MAIL FROM".isPrefixOf (authLoginLine t) with
    | false => rfl
    | true =>
      obtain ⟨r, hr⟩ := List.isPrefixOf_iff_prefix.mp h
      rw [← hr] at this
      simp [visible, base64Byte, Base64.value] at this
  rcases hd with rfl | rfl | rfl | rfl | rfl
  · rfl
  · rfl
  · exact login _
  · exact login _
  · rfl

theorem rcpt_noData (a : MessageAddress) (c) : noData c .cmd (cstr (rcptTo a)) := by
  intro _ h
  have := cstr_head 82 (by decide) (b!"CPT TO: <" ++ a.email ++ b!">\r\n")
  rw [show (82 :: (b!"CPT TO: <" ++ a.email ++ b!">\r\n")) = rcptTo a from rfl, h] at this
  simp at this

theorem mail_noData (a : MessageAddress) : ∀ f ∈ mailFormats a, ∀ c, noData c .cmd (cstr f) := by
  intro f hf c _ h
  rw [mailFormats_eq] at hf
  have : ∃ r, f = 77 :: r := by
    simp only [senderForms, List.mem_cons, List.not_mem_nil, or_false] at hf
    rcases hf with rfl | rfl | rfl <;> exact ⟨_, rfl⟩
  obtain ⟨r, rfl⟩ := this
  have := cstr_head 77 (by decide) r
  rw [h] at this
  simp at this

theorem recipientsLoop_noData (l) : Steps env (Saying noData) (recipientsLoop l) :=
  recipientsLoop_saying l fun _ _ a _ c => rcpt_noData a c

theorem listsBefore_noData (l) : Steps env (Saying noData) (listsBefore l) := by
  induction l with
  | nil => unfold listsBefore; steps []
  | cons a l ih =>
    unfold listsBefore
    have h : ∀ l c, Steps env (Saying noData) (addMailRecipients c l) := fun l c => addMailRecipients_saying l (fun a _ c => rcpt_noData a c) c
    steps [arrElems_steps, h]

theorem commonConnected_noData (m) : Steps env (Saying noData) (commonConnected m) := by
  unfold commonConnected
  have h := fun c => mailFromLoop_saying (env := env) (D := noData) (mailFormats m.from) (mail_noData m.from) c
  steps [h, listsBefore_noData, Steps.modify]
  exact Saying.same rfl rfl

theorem sendMailRest_noMail (m) : Steps env (Saying noMail) (sendMailRest m) := by
  have h1 := setMailHeaders_saying (env := env) (D := noMail) m (fun _ _ _ h => by cases h) (fun _ _ => by decide)
  have h2 : ∀ t, Steps env (Saying noMail) (sendBodyText t) := fun t => sendBodyText_saying t fun _ _ _ h => by cases h
  have h3 := cmd_saying (env := env) (D := noMail) (d := endOfData) (fun _ _ => by decide) (-97) (-98)
  unfold sendMailRest setMailBody
  steps [addLog_steps, fullBody_steps, h2, sendQuit_steps, cleanup_steps]

/-- Everything before the blind copies. -/
theorem common_out (m : Message) (s : St) :
    ∃ a b, (common m env s).2.hist = s.hist ++ a ++ b ∧ (∀ e ∈ a, isMail e = false) ∧ (∀ e ∈ b, isData e = false) := by
  have key : wp env (common m) (fun _ s' => ∃ a b, s'.hist = s.hist ++ a ++ b ∧ (∀ e ∈ a, isMail e = false) ∧ (∀ e ∈ b, isData e = false))
      (fun _ s' => ∃ a b, s'.hist = s.hist ++ a ++ b ∧ (∀ e ∈ a, isMail e = false) ∧ (∀ e ∈ b, isData e = false)) s := by
    have conn : ∀ s1 a, s1.hist = s.hist ++ a → (∀ e ∈ a, isMail e = false) → wp env (commonConnected m)
        (fun _ s' => ∃ a b, s'.hist = s.hist ++ a ++ b ∧ (∀ e ∈ a, isMail e = false) ∧ (∀ e ∈ b, isData e = false))
        (fun _ s' => ∃ a b, s'.hist = s.hist ++ a ++ b ∧ (∀ e ∈ a, isMail e = false) ∧ (∀ e ∈ b, isData e = false)) s1 := by
      intro s1 a h1 ha
      have fin : ∀ s', Saying noData s1 s' → ∃ a b, s'.hist = s.hist ++ a ++ b ∧ (∀ e ∈ a, isMail e = false) ∧ (∀ e ∈ b, isData e = false) := by
        intro s' h
        obtain ⟨b, hb, hb'⟩ := h.noData
        exact ⟨a, b, by rw [hb, h1], ha, hb'⟩
      exact wp_mono ((commonConnected_noData m).run s1) (fun _ _ h => fin _ h) (fun _ _ h => fin _ h)
    unfold common
    rw [wp_bind, wp_gets, wp_ite]
    refine ⟨fun _ => conn s [] (by simp) (by simp), fun _ => ?_⟩
    rw [wp_bind]
    refine wp_mono (establish_noMail.run s) (fun code s1 h1 => ?_) (fun _ s1 h1 => ?_)
    · obtain ⟨a, ha, ha'⟩ := h1.noMail
      rw [wp_ite]
      refine ⟨fun _ => ?_, fun _ => conn s1 a ha ha'⟩
      exact ⟨a, [], by simp [ha], ha', by simp⟩
    · obtain ⟨a, ha, ha'⟩ := h1.noMail
      exact ⟨a, [], by simp [ha], ha', by simp⟩
  unfold wp at key
  revert key
  rcases common m env s with ⟨r, s'⟩
  cases r <;> exact id

/-- The blind copies: no DATA, and either it ends there or the rest follows. -/
theorem bccPart_out (m : Message) (u : St) (hl : Props.LogInv u) :
    ∃ v c, v.hist = u.hist ++ c ∧ (∀ e ∈ c, isData e = false) ∧ ((bccPart m env u).2 = v ∨
      (bccPart m env u = sendMailRest m env v ∧ Held u v ∧ Props.LogInv v)) := by
  have key : wp env (recipientsLoop [m.bcc]) (fun _ v => Saying noData u v ∧ Held u v ∧ Props.LogInv v) (fun _ v => Saying noData u v) u := by
    refine wp_mono (wp_and ((recipientsLoop_noData [m.bcc]).run u) (wp_and ((wh_recipientsLoop (R := Held) [m.bcc]).run u)
      ((recipientsLoop_steps (R := fun s s' => Props.LogInv s → Props.LogInv s') [m.bcc]).run u))) ?_ (fun _ _ h => h.1)
    exact fun _ v h => ⟨h.1, h.2.1, h.2.2 hl⟩
  unfold bccPart
  rw [bind_run]
  unfold wp at key
  revert key
  rcases recipientsLoop [m.bcc] env u with ⟨r, v⟩
  cases r with
  | stop e =>
    intro h
    obtain ⟨c, hc, hc'⟩ := Saying.noData h
    exact ⟨v, c, hc, hc', .inl rfl⟩
  | ok code =>
    rintro ⟨h, h2, h3⟩
    obtain ⟨c, hc, hc'⟩ := Saying.noData h
    refine ⟨v, c, hc, hc', ?_⟩
    unfold finish
    dsimp only
    by_cases h0 : code ≠ 0
    · rw [if_pos h0]; exact .inl rfl
    · rw [if_neg h0]; exact .inr ⟨rfl, h2, h3⟩

/-- The rest begins with DATA. -/
theorem sendMailRest_out (m : Message) (v : St) (hl : Props.LogInv v) :
    (sendMailRest m env v).2.hist = v.hist ∨ (HasLog v ∧ ∃ x q, (sendMailRest m env v).2.hist = v.hist ++ .send .cmd (chan v.client) dataCmd x :: q ∧
      ∀ e ∈ q, isMail e = false) := by
  cases hlog : v.client.log with
  | none =>
    left
    unfold sendMailRest setMailHeaders addLog
    simp only [bind_run, gets_run, hlog]
    rfl
  | some l =>
    right
    have hv : HasLog v := ⟨l, hlog, hl l hlog⟩
    refine ⟨hv, ?_⟩
    have more : ∀ {β : Type} (p : M β) s1, Steps env Ext p → (∃ x, Ext (St.snoc v (.send .cmd (chan v.client) dataCmd x)) s1) →
        wp env p (fun _ s' => ∃ x, Ext (St.snoc v (.send .cmd (chan v.client) dataCmd x)) s') (fun _ s' => ∃ x, Ext (St.snoc v (.send .cmd (chan v.client) dataCmd x)) s') s1 := by
      rintro β p s1 hp ⟨x, hx⟩
      exact wp_mono (hp.run s1) (fun _ _ h => ⟨x, hx.trans h⟩) (fun _ _ h => ⟨x, hx.trans h⟩)
    have key : wp env (sendMailRest m) (fun _ s' => ∃ x, Ext (St.snoc v (.send .cmd (chan v.client) dataCmd x)) s')
        (fun _ s' => ∃ x, Ext (St.snoc v (.send .cmd (chan v.client) dataCmd x)) s') v := by
      unfold sendMailRest
      rw [wp_bind]
      refine wp_mono (?_ : wp env (setMailHeaders m) (fun _ s' => ∃ x, Ext (St.snoc v (.send .cmd (chan v.client) dataCmd x)) s')
        (fun _ s' => ∃ x, Ext (St.snoc v (.send .cmd (chan v.client) dataCmd x)) s') v) (fun code s1 h => more _ s1 ?_ h) (fun _ _ h => h)
      · unfold setMailHeaders
        rw [wp_bind]
        refine wp_addLog hv fun l _ _ => ?_
        rw [wp_bind]
        refine wp_mono (sendPtrFb_out dataCmd (-89) (-90) _ (by decide)) (fun code s1 h => more _ s1 ?_ ?_) ?_
        · unfold addressHeader addMailHeader
          steps [addLog_steps, sendPtr_steps', arrElems_steps]
        · rcases h with ⟨n, t, ⟨_, evs, h1, _⟩, _⟩ | ⟨_, _, x, _, evs, h1, _⟩
          · exact ⟨.sent n, evs, h1⟩
          · exact ⟨x, evs, h1⟩
        · rintro _ s1 ⟨x, _, evs, h1, _⟩
          exact ⟨x, evs, h1⟩
      · steps [setMailBody_steps, cleanup_steps]
    have key2 := (sendMailRest_noMail (env := env) m).run v
    revert key key2
    unfold wp
    rcases sendMailRest m env v with ⟨r, s'⟩
    have fin : (∃ x, Ext (St.snoc v (.send .cmd (chan v.client) dataCmd x)) s') → Saying noMail v s' →
        ∃ x q, s'.hist = v.hist ++ .send .cmd (chan v.client) dataCmd x :: q ∧ ∀ e ∈ q, isMail e = false := by
      rintro ⟨x, q, hq⟩ h
      obtain ⟨evs, h1, h2⟩ := h.noMail
      have hq : s'.hist = v.hist ++ .send .cmd (chan v.client) dataCmd x :: q := by rw [hq]; simp [St.snoc]
      rw [h1] at hq
      have := List.append_cancel_left hq
      subst this
      exact ⟨x, q, h1, fun e he => h2 e (by simp [he])⟩
    cases r <;> exact fin

/-! ### Histories -/

theorem dropWhile_none {p : Ev → Bool} {l : Hist} (h : ∀ e ∈ l, p e = false) : l.dropWhile (!p ·) = [] := by
  induction l with
  | nil => rfl
  | cons a l ih => simp [h a (by simp), ih fun e he => h e (by simp [he])]

theorem dropWhile_append_none {p : Ev → Bool} {a b : Hist} (h : ∀ e ∈ a, p e = false) : (a ++ b).dropWhile (!p ·) = b.dropWhile (!p ·) := by
  induction a with
  | nil => rfl
  | cons x a ih => simp [h x (by simp), ih fun e he => h e (by simp [he])]

theorem fromData_none {a b : Hist} (ha : ∀ e ∈ a, isMail e = false) (hb : ∀ e ∈ b, isData e = false) : fromData (a ++ b) = [] := by
  unfold fromData
  rw [dropWhile_append_none ha]
  exact dropWhile_none fun e he => hb e ((List.dropWhile_suffix _).subset he)

theorem fromData_some {a b q : Hist} {d : Ev} (ha : ∀ e ∈ a, isMail e = false) (hb : ∀ e ∈ b, isData e = false) (hd : isData d = true)
    (hq : ∀ e ∈ d :: q, isMail e = false) (hn : fromData (a ++ (b ++ d :: q)) ≠ []) :
    fromData (a ++ (b ++ d :: q)) = d :: q ∧ beforeData (a ++ (b ++ d :: q)) = a ++ b := by
  have key : fromData (a ++ (b ++ d :: q)) = d :: q := by
    unfold fromData at hn ⊢
    rw [dropWhile_append_none ha] at hn ⊢
    rw [List.dropWhile_append] at hn ⊢
    split
    · rename_i h
      rw [if_pos h, dropWhile_none hq] at hn
      exact absurd rfl hn
    · rw [dropWhile_append_none fun e he => hb e ((List.dropWhile_suffix _).subset he)]
      simp [hd]
  refine ⟨key, ?_⟩
  unfold beforeData
  rw [key, ← List.append_assoc, List.length_append, Nat.add_sub_cancel]
  exact List.take_left

/-! ### Two messages -/

theorem logInv_common (m : Message) (s : St) (hl : Props.LogInv s) : Props.LogInv (common m env s).2 := by
  have h1 : Steps env (fun s s' => Props.LogInv s → Props.LogInv s') (listsBefore [m.to, m.cc]) := by
    have : ∀ l, Steps env (fun s s' => Props.LogInv s → Props.LogInv s') (listsBefore l) := by
      intro l
      induction l with
      | nil => unfold listsBefore; steps []
      | cons a l ih => unfold listsBefore; steps [arrElems_steps, addMailRecipients_steps]
    exact this _
  have h2 : Steps env (fun s s' => Props.LogInv s → Props.LogInv s') (common m) := by
    unfold common commonConnected
    steps [establish_steps, mailFromLoop_steps, Steps.modify]
    all_goals exact fun h => h
  have := h2.run s
  unfold wp at this
  revert this
  rcases common m env s with ⟨r, s'⟩
  cases r <;> exact fun h => h hl

theorem same_from_data {m m' : Message} (hb : SameButBcc m m') (s : St) (hl : Props.LogInv s) {h h' : Hist}
    (hh : (sendMail m env s).2.hist = s.hist ++ h) (hh' : (sendMail m' env s).2.hist = s.hist ++ h')
    (hd : LiveData h) (hd' : LiveData h') (ha : AlikeFrom env (s.hist ++ beforeData h) (s.hist ++ beforeData h')) :
    fromData h = fromData h' ∧ (sendMail m env s).1 = (sendMail m' env s).1 := by
  have hc : common m = common m' := by rw [common_withoutBcc m, common_withoutBcc m', show withoutBcc m = withoutBcc m' from hb]
  have hf : sendMailRest m = sendMailRest m' := by
    rw [show sendMailRest m = sendMailRest (withoutBcc m) from rfl, show sendMailRest m' = sendMailRest (withoutBcc m') from rfl,
      show withoutBcc m = withoutBcc m' from hb]
  obtain ⟨a, b, hu, hA, hB⟩ := common_out (env := env) m s
  have hlu := logInv_common (env := env) m s hl
  rw [sendMail_common, bind_run] at hh ⊢
  rw [sendMail_common, bind_run, ← hc] at hh' ⊢
  revert hu hh hh' hlu
  rcases common m env s with ⟨r, u⟩
  intro hh hh' hu hlu
  dsimp only at hu hlu
  have same : ∀ (res : Res Int × St), res.2.hist = s.hist ++ h → res.2.hist = s.hist ++ h' → fromData h = fromData h' ∧ res.1 = res.1 := by
    intro res e1 e2
    rw [e1] at e2
    rw [List.append_cancel_left e2]
    exact ⟨rfl, rfl⟩
  cases r with
  | stop e => exact same (.stop e, u) hh hh'
  | ok o =>
    cases o with
    | some p => exact same (p env u) hh hh'
    | none =>
      dsimp only [goOn] at hh hh' ⊢
      -- one of the two runs
      have one : ∀ (m : Message) (h : Hist), (bccPart m env u).2.hist = s.hist ++ h → LiveData h →
          ∃ v c x q, bccPart m env u = sendMailRest m env v ∧ SameConn u.client v.client ∧ HasLog v ∧ fromData h = .send .cmd (chan v.client) dataCmd x :: q ∧
            v.hist = s.hist ++ beforeData h ∧ (sendMailRest m env v).2.hist = v.hist ++ fromData h ∧ c = beforeData h := by
        intro m h e ⟨ch, d, r, rest, hfd, hch⟩
        have hne : fromData h ≠ [] := by rw [hfd]; simp
        obtain ⟨v, c, hv, hC, hcase⟩ := bccPart_out (env := env) m u hlu
        have hBC : ∀ e ∈ b ++ c, isData e = false := by
          intro e he
          rcases List.mem_append.mp he with he | he
          · exact hB e he
          · exact hC e he
        rcases hcase with hcase | ⟨hcase, hheld, hlv⟩
        · rw [hcase, hv, hu] at e
          have : h = a ++ (b ++ c) := (List.append_cancel_left (by rw [← e]; simp)).symm
          rw [this] at hne
          exact absurd (fromData_none hA hBC) hne
        · rcases sendMailRest_out (env := env) m v hlv with h0 | ⟨hlog, x, q, h0, hq⟩
          · rw [hcase, h0, hv, hu] at e
            have : h = a ++ (b ++ c) := (List.append_cancel_left (by rw [← e]; simp)).symm
            rw [this] at hne
            exact absurd (fromData_none hA hBC) hne
          · have e' := e
            rw [hcase, h0, hv, hu] at e'
            have hh : h = a ++ (b ++ c ++ .send .cmd (chan v.client) dataCmd x :: q) := (List.append_cancel_left (by rw [← e']; simp)).symm
            obtain ⟨k1, k2⟩ := fromData_some (d := .send .cmd (chan v.client) dataCmd x) hA hBC rfl (by
              intro e he
              rcases List.mem_cons.mp he with rfl | he
              · rfl
              · exact hq e he) (hh ▸ hne)
            rw [← hh] at k1 k2
            refine ⟨v, beforeData h, x, q, hcase, ?_, hlog, k1, ?_, ?_, rfl⟩
            · rcases hheld with hheld | hdead
              · exact hheld
              · rw [k1] at hfd
                have : chan v.client = ch := by injection hfd with e _; injection e
                rw [chan_dead hdead] at this
                exact absurd this.symm hch
            · rw [k2, hv, hu]; simp
            · rw [h0, k1]
      obtain ⟨v, c, x, q, e1, c1, l1, f1, g1, r1, rfl⟩ := one m h hh hd
      obtain ⟨v', c', x', q', e1', c1', l1', f1', g1', r1', rfl⟩ := one m' h' hh' hd'
      have hA := after_alike ha
      have conn : SameConn v.client v'.client := by
        unfold SameConn at *
        rw [c1', c1]
      have := (tw_sendMailRest (h := hA) m).run v v' ⟨conn, l1, l1', [], by simp [g1], by simp [g1']⟩
      obtain ⟨t1, t2⟩ := this
      obtain ⟨e, k1, k2⟩ := t2.hist
      rw [r1, g1] at k1
      rw [hf, r1', g1'] at k2
      rw [e1, e1', List.append_cancel_left k1, List.append_cancel_left k2, ← hf]
      exact ⟨rfl, t1⟩

end Verif.Proofs
