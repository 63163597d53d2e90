import Verif.Proofs.Deliver
/-!
# When a failed transmission leaves the client connected
-/
namespace Verif.Proofs
open Verif Verif.Model Verif.Spec

variable {α : Type} {env : Env}

/-- The client regards itself as not connected. -/
def Off (s : St) : Prop := s.client.isConnected = false

/-- Once off, nothing in this part switches it on. -/
def StaysOff (s s' : St) : Prop := Off s → Off s'

instance : Sending StaysOff where
  refl := fun _ h => h
  trans := fun h h' x => h' (h x)
  log := fun _ _ _ _ _ _ _ h => h
  errno := fun _ _ h => h
  resp := fun _ _ h => h
  auth := fun _ _ h => h
  fcntlGet := fun _ _ _ h => h
  fcntlSet := fun _ _ _ _ h => h
  select := fun _ _ _ h => h
  sockopt := fun _ _ _ h => h
  resolve := fun _ _ _ h => h
  connect := fun _ _ _ _ h => h
  sleep := fun _ h => h
  recv := fun _ _ _ h => h
  disconnected := fun _ _ => rfl
  ctx := fun _ _ h => h
  noBio := fun _ h => h
  noSock := fun _ h => h
  close := fun _ _ h => h
  bioFree := fun _ _ h => h
  quit := fun _ _ _ h => h
  send := fun _ _ _ _ _ h => h

instance : Filing StaysOff where
  readFile := fun _ _ _ h => h

instance : Establishing StaysOff where
  freshLog := fun _ h => h
  keep := fun _ h => h
  bio := fun _ _ h => h
  sock := fun _ _ h => h
  socket := fun _ _ h => h
  tls := fun _ _ _ h => h
  askCmd := fun _ _ _ _ h => h

/-- The code is that of a reply to a command, or the client is off. -/
def Why (code : Int) (s s' : St) : Prop := Off s' ∨ ∃ d, Ans d code s s'

theorem Why.before {code : Int} {a b c : St} (h : Why code a b) (h' : Ext b c) (ho : StaysOff b c) : Why code a c :=
  h.imp ho fun ⟨d, h⟩ => ⟨d, h.before h'⟩

theorem Why.after {code : Int} {a b c : St} (h' : Ext a b) (h : Why code b c) : Why code a c := h.imp id fun ⟨d, h⟩ => ⟨d, h.after h'⟩

/-- Every result is the good one, or is explained. -/
structure Whys (env : Env) (ok : Int) (m : M Int) : Prop where
  run : ∀ s, post env m (fun c s' => (c = ok ∨ Why c s s') ∧ Ext s s') s

namespace Whys
variable {ok ok' : Int} {m : M Int} {f : α → M Int}

theorem pure (ok : Int) : Whys env ok (Pure.pure ok) := ⟨fun _ => ⟨.inl rfl, Ext.same rfl⟩⟩

theorem pre {m : M α} (h : Steps env Ext m) (hf : ∀ a, Whys env ok (f a)) : Whys env ok (m >>= f) := by
  constructor
  intro s
  unfold post
  rw [wp_bind]
  refine wp_mono (h.run s) (fun a s1 h1 => ?_) (fun _ _ _ => trivial)
  exact wp_mono ((hf a).run s1) (fun c s2 h2 => ⟨h2.1.imp id fun w => w.after h1, h1.trans h2.2⟩) (fun _ _ _ => trivial)

theorem ite {c : Prop} [Decidable c] {a b : M Int} (ha : Whys env ok a) (hb : Whys env ok b) : Whys env ok (if c then a else b) := by
  split <;> assumption

/-- After a step that must give `ok`. -/
theorem guard {r : M Int} (h : Whys env ok m) (hr : Whys env ok' r) :
    Whys env ok' (do let code ← m; if code ≠ ok then Pure.pure code else r) := by
  constructor
  intro s
  unfold post
  rw [wp_bind]
  refine wp_mono (h.run s) (fun c s1 h1 => ?_) (fun _ _ _ => trivial)
  rw [wp_ite]
  refine ⟨fun hne => ⟨.inr (h1.1.resolve_left hne), h1.2⟩, fun _ => ?_⟩
  exact wp_mono (hr.run s1) (fun c s2 h2 => ⟨h2.1.imp id fun w => w.after h1.2, h1.2.trans h2.2⟩) (fun _ _ _ => trivial)
end Whys

theorem sendPtrFb_explained (d e t) (he : e ≠ 0) (s : St) : post env (sendPtrFb d e t) (fun c s' => Why c s s' ∧ Ext s s') s := by
  refine wp_mono (wp_and (sendPtrFb_out d e t s he) ((sendPtrFb_steps' (R := Ext) d e t).run s)) ?_ (fun _ _ _ => trivial)
  rintro code s' ⟨h | ⟨_, h, _⟩, he⟩
  · exact ⟨.inr ⟨_, h.ans⟩, he⟩
  · exact ⟨.inl h.isConnected, he⟩

theorem sendPtrFb_why (ok d e t) (he : e ≠ 0) : Whys env ok (sendPtrFb d e t) :=
  ⟨fun s => wp_mono (sendPtrFb_explained d e t he s) (fun _ _ h => ⟨.inr h.1, h.2⟩) (fun _ _ _ => trivial)⟩

theorem sendPtr_why (k d e) : Whys env 0 (sendPtr k d e) := by
  constructor
  intro s
  refine wp_mono (wp_and (sendPtr_out k d e s) ((sendPtr_steps' (R := Ext) k d e).run s)) ?_ (fun _ _ _ => trivial)
  rintro code s' ⟨h | ⟨_, h, _⟩, he⟩
  · exact ⟨.inl h.1, he⟩
  · exact ⟨.inr (.inl h.isConnected), he⟩

theorem mailFromLoop_why (last : Int) (l : List Bytes) (s : St) :
    post env (mailFromLoop last l) (fun c s' => (c = 250 ∨ Why c s s' ∨ (l = [] ∧ c = last)) ∧ Ext s s') s := by
  induction l generalizing last s with
  | nil => exact ⟨.inr (.inr ⟨rfl, rfl⟩), Ext.same rfl⟩
  | cons f l ih =>
    unfold mailFromLoop post
    rw [wp_bind]
    refine wp_mono ((addLog_steps (R := Ext) _ _).run s) (fun _ s1 h1 => ?_) (fun _ _ _ => trivial)
    rw [wp_bind]
    refine wp_mono (sendPtrFb_explained f (-85) (-86) (by decide) s1) (fun c s2 h2 => ?_) (fun _ _ _ => trivial)
    have e2 : Ext s s2 := h1.trans h2.2
    simp only [wp_ite]
    refine ⟨fun _ => ⟨.inl rfl, e2⟩, fun _ => ⟨fun hne => ?_, fun hne => ?_⟩⟩
    · exact ⟨.inr (.inl (h2.1.after h1)), e2⟩
    · refine wp_mono (wp_and (ih c s2) ((mailFromLoop_steps (R := StaysOff) c l).run s2)) (fun c' s3 h3 => ?_) (fun _ _ _ => trivial)
      obtain ⟨⟨h3, e3⟩, ho⟩ := h3
      refine ⟨?_, e2.trans e3⟩
      rcases h3 with h3 | h3 | ⟨_, rfl⟩
      · exact .inl h3
      · exact .inr (.inl (h3.after e2))
      · exact .inr (.inl ((h2.1.after h1).before e3 ho))

theorem addMailRecipients_why (ret : Int) (l : List MessageAddress) (s : St) :
    post env (addMailRecipients ret l) (fun c s' => (c = ret ∨ Why c s s') ∧ Ext s s') s := by
  induction l generalizing ret s with
  | nil => exact ⟨.inl rfl, Ext.same rfl⟩
  | cons a l ih =>
    unfold addMailRecipients post
    rw [wp_bind]
    refine wp_mono ((addLog_steps (R := Ext) _ _).run s) (fun _ s1 h1 => ?_) (fun _ _ _ => trivial)
    rw [wp_bind]
    refine wp_mono ((sendPtrFb_why 250 (rcptTo a) (-87) (-88) (by decide)).run s1) (fun c s2 h2 => ?_) (fun _ _ _ => trivial)
    have e2 : Ext s s2 := h1.trans h2.2
    refine wp_mono (wp_and (ih _ s2) ((addMailRecipients_steps (R := StaysOff) _ l).run s2)) (fun c' s3 h3 => ?_) (fun _ _ _ => trivial)
    obtain ⟨⟨h3, e3⟩, ho⟩ := h3
    refine ⟨?_, e2.trans e3⟩
    rcases h3 with h3 | h3
    · by_cases hc : c = 250
      · rw [if_neg (by simp [hc])] at h3; exact .inl h3
      · rw [if_pos hc] at h3
        subst h3
        exact .inr (((h2.1.resolve_left hc).after h1).before e3 ho)
    · exact .inr (h3.after e2)

theorem addMailRecipients_whys (l) : Whys env 250 (addMailRecipients 250 l) := ⟨addMailRecipients_why 250 l⟩

theorem recipientsLoop_why (l) : Whys env 0 (recipientsLoop l) := by
  induction l with
  | nil => exact .pure 0
  | cons a l ih =>
    unfold recipientsLoop
    refine .ite ih (.pre (arrElems_steps a) fun l => .guard (addMailRecipients_whys l) ih)

theorem mailFormats_ne (a) : mailFormats a ≠ [] := by simp [mailFormats]

theorem setMailRecipients_why (m) : Whys env 0 (setMailRecipients m) := by
  unfold setMailRecipients
  refine .guard ⟨fun s => ?_⟩ (recipientsLoop_why _)
  refine wp_mono (mailFromLoop_why 0 (mailFormats m.from) s) (fun c s' h => ⟨?_, h.2⟩) (fun _ _ _ => trivial)
  rcases h.1 with h | h | h
  · exact .inl h
  · exact .inr h
  · exact absurd h.1 (mailFormats_ne _)

theorem addressHeader_ext (f a) : Steps env Ext (addressHeader f a) := by
  unfold addressHeader addMailHeader
  steps [addLog_steps, sendPtr_steps', arrElems_steps]

theorem setMailHeaders_why (m) : Whys env 0 (setMailHeaders m) := by
  unfold setMailHeaders
  refine .pre (addLog_steps _ _) fun _ => .guard (sendPtrFb_why _ _ _ _ (by decide)) (.guard (.pre (addLog_steps _ _) fun _ => sendPtr_why _ _ _) ?_)
  refine .pre (addressHeader_ext _ _) fun _ => .pre (addressHeader_ext _ _) fun _ => .pre (addLog_steps _ _) fun _ => ?_
  exact .guard (sendPtr_why _ _ _) (.pre (addLog_steps _ _) fun _ => .guard (sendPtr_why _ _ _) (.pure 0))

theorem sendPieces_why (l) : Whys env 0 (sendPieces l) := by
  induction l with
  | nil => exact .pure 0
  | cons a l ih => unfold sendPieces; exact .guard (sendPtr_why _ _ _) ih

theorem sendBodyText_why (b) : Whys env 0 (sendBodyText b) := by
  unfold sendBodyText
  exact .ite (sendPieces_why _) (.guard (sendPtr_why _ _ _) (.pure 0))

theorem sendQuit_why : Whys env 0 sendQuit := by
  unfold sendQuit sendQuitWith
  exact .pre (addLog_steps _ _) fun _ => sendPtr_why .quit quitCmd (-99)

theorem setMailBody_why (m) : Whys env 0 (setMailBody m) := by
  unfold setMailBody
  refine .pre (addLog_steps _ _) fun _ => .pre (fullBody_steps _) fun _ => .guard (sendBodyText_why _) (.pre (addLog_steps _ _) fun _ => ?_)
  exact .guard (sendPtrFb_why _ _ _ _ (by decide)) (.pre (.gets _) fun _ => .ite (.pure 0) (.guard sendQuit_why (.pure 0)))

theorem sendMailRest_why (m) : Whys env 0 (sendMailRest m) := by
  unfold sendMailRest
  exact .guard (setMailHeaders_why m) (.guard (setMailBody_why m) (.pre (.gets _) fun _ => .ite (.pure 0) (.pre cleanup_steps fun _ => .pure 0)))

theorem sendMailConnected_why (m) : Whys env 0 (sendMailConnected m) := by
  unfold sendMailConnected
  exact .pre (.modify fun s => Ext.same rfl) fun _ => .guard (setMailRecipients_why m) (sendMailRest_why m)

/-- **A failed `sendMail`** was refused by a reply, or leaves the client off. -/
theorem sendMail_why (m : Message) (s : St) :
    post env (sendMail m) (fun c s' => c = 0 ∨ Why c s s') s := by
  unfold sendMail post
  rw [wp_bind, wp_gets]
  rw [wp_ite]
  refine ⟨fun _ => ?_, fun h => ?_⟩
  · exact wp_mono ((sendMailConnected_why m).run s) (fun _ _ h => h.1) (fun _ _ _ => trivial)
  · rw [wp_bind]
    refine wp_mono (wp_and ((establish_steps (R := StaysOff)).run s) ((establish_steps (R := Ext)).run s)) (fun c s1 h1 => ?_) (fun _ _ _ => trivial)
    rw [wp_ite]
    refine ⟨fun hne => .inr (.inl (h1.1 (by simpa [Off] using h))), fun _ => ?_⟩
    exact wp_mono ((sendMailConnected_why m).run s1) (fun _ _ h => h.1.imp id fun w => w.after h1.2) (fun _ _ _ => trivial)

end Verif.Proofs
