import Verif.Proofs.Frame
/-!
# Invariants over commands and replies

`Keeps env P Q J m`: started in a state with `P`, `m` ends in one with `Q`, or stops in one with `J`. The structure `Talk` collects
what has to be shown about the few functions that send commands and wait; the theorems below follow the rest of the session code.
-/
namespace Verif.Proofs
open Verif Verif.Model

variable {α β : Type} {env : Env}

def Keeps (env : Env) (P Q J : St → Prop) (m : M α) : Prop := ∀ s, P s → wp env m (fun _ => Q) (fun _ => J) s

/-- The same with the result of the code. -/
def KeepsR (env : Env) (P : St → Prop) (Q : α → St → Prop) (J : St → Prop) (m : M α) : Prop := ∀ s, P s → wp env m Q (fun _ => J) s

namespace Keeps
variable {P Q T J : St → Prop}

theorem bind {m : M β} {f : β → M α} (hm : Keeps env P Q J m) (hf : ∀ b, Keeps env Q T J (f b)) : Keeps env P T J (m >>= f) := by
  intro s hs
  rw [wp_bind]
  exact wp_mono (hm s hs) (fun b s' h => hf b s' h) (fun _ _ h => h)

theorem ite {c : Prop} [Decidable c] {a b : M α} (ha : Keeps env P Q J a) (hb : Keeps env P Q J b) : Keeps env P Q J (if c then a else b) := by
  split <;> assumption

theorem pure (a : α) : Keeps env P P J (Pure.pure a : M α) := fun _ h => h
theorem stop (h : ∀ s, P s → J s) (e : Stop) : Keeps env P Q J (M.stop e : M α) := fun s hs => h s hs

theorem steps {R : St → St → Prop} {m : M α} (hm : Steps env R m) (hr : ∀ s s', R s s' → P s → P s') (hj : ∀ s, P s → J s) : Keeps env P P J m :=
  fun s hs => wp_mono (hm.run s) (fun _ _ h => hr _ _ h hs) (fun _ _ h => hj _ (hr _ _ h hs))

/-- Reading the client object does nothing. -/
theorem gets {f : Client → β} {g : β → M α} (h : ∀ b, Keeps env P Q J (g b)) : Keeps env P Q J (M.gets f >>= g) := fun s hs => h _ s hs
theorem env' {f : Env → β} {g : β → M α} (h : ∀ b, Keeps env P Q J (g b)) : Keeps env P Q J (M.env f >>= g) := fun s hs => h _ s hs

end Keeps

/-- What has to be shown: `P0` holds before the greeting, `P` afterwards, `J` when the run stops. `R` is a relation kept by everything that
neither sends commands nor waits. -/
structure Talk (env : Env) (R : St → St → Prop) (P0 P J : St → Prop) : Prop where
  silent : Silent R
  r0 : ∀ s s', R s s' → P0 s → P0 s'
  r : ∀ s s', R s s' → P s → P s'
  j0 : ∀ s, P0 s → J s
  j : ∀ s, P s → J s
  zero : ∀ s, P0 s → P s
  greet : Keeps env P0 P J checkServerGreetings
  raw : ∀ d e t, e < 0 → t < 0 → Keeps env P P J (sendRawFb d e t)
  tls : ∀ d e t, e < 0 → t < 0 → Keeps env (fun s => P s ∧ s.client.bio ≠ none) P J (sendTlsFb d e t)
  identify : ∀ e t, e < 0 → t < 0 → Keeps env P P J (identify e t)

namespace Talk
variable {R : St → St → Prop} {P0 P J : St → Prop} (T : Talk env R P0 P J)
include T

theorem mute {m : M α} (hm : Steps env R m) : Keeps env P P J m := .steps hm T.r T.j
theorem mute0 {m : M α} (hm : Steps env R m) : Keeps env P0 P0 J m := .steps hm T.r0 T.j0
theorem failed (c : Int) : Keeps env P0 P J (pure c) := fun s hs => T.zero s hs

theorem log (i p : Bytes) : Keeps env P P J (addLog i p) := by have := T.silent; exact T.mute (addLog_steps _ _)
theorem log0 (i p : Bytes) : Keeps env P0 P0 J (addLog i p) := by have := T.silent; exact T.mute0 (addLog_steps _ _)

theorem content (d e) : Keeps env P P J (sendPtr .content d e) := by
  have := T.silent
  exact T.mute (sendPtr_steps (fun _ _ _ => Silent.content _ _ _ _) e)

theorem fb (d : Bytes) (e t : Int) (he : e < 0) (ht : t < 0) : Keeps env P P J (sendFb d e t) := by
  intro s hs
  unfold sendFb
  rw [wp_bind, wp_gets, wp_bind, wp_gets, wp_ite]
  refine ⟨fun _ => T.raw d e t he ht s hs, fun h => T.tls d e t he ht s ⟨hs, ?_⟩⟩
  intro hb
  rw [hb] at h
  simp at h

theorem ptrFb (d : Bytes) (e t : Int) (he : e < 0) (ht : t < 0) : Keeps env P P J (sendPtrFb d e t) := by
  unfold sendPtrFb
  exact .gets fun _ => .ite (T.raw d e t he ht) (T.fb d e t he ht)

theorem authenticateIfNeeded : Keeps env P P J authenticateIfNeeded := by
  unfold Model.authenticateIfNeeded
  refine .gets fun _ => .ite (Keeps.bind (Q := P) ?_ fun _ => .ite (.pure _) (.pure _)) (.pure _)
  unfold authenticateClient
  refine .gets fun c => ?_
  cases c with
  | none => exact .pure _
  | some c =>
    refine .gets fun o => ?_
    cases o with
    | none => exact .stop T.j _
    | some o =>
      refine .ite ((T.log _ _).bind fun _ => T.ptrFb _ _ _ (by decide) (by decide)) (.ite ?_ (.ite ((T.log _ _).bind fun _ => T.ptrFb _ _ _ (by decide) (by decide)) (.pure _)))
      unfold authLoginM
      exact (T.log _ _).bind fun _ => (T.ptrFb _ _ _ (by decide) (by decide)).bind fun _ => .ite (.pure _) ((T.ptrFb _ _ _ (by decide) (by decide)).bind fun _ => .ite (.pure _) (T.ptrFb _ _ _ (by decide) (by decide)))

theorem establish : Keeps env P0 P J establish := by
  have := T.silent
  have secure : Keeps env P P J getServerSecureIdentification := by
    unfold getServerSecureIdentification
    exact (T.log _ _).bind fun _ => T.identify _ _ (by decide) (by decide)
  have greeted : ∀ rest, Keeps env P P J rest → Keeps env P0 P J (establishGreeted rest) := by
    intro rest hr
    unfold establishGreeted
    exact T.greet.bind fun _ => .ite (.pure _) ((T.identify _ _ (by decide) (by decide)).bind fun _ => .ite (.pure _) hr)
  unfold Model.establish
  refine (T.mute0 initializeSession_steps).bind fun _ => .ite (T.failed _) (.gets fun k => ?_)
  cases k with
  | smtp => exact greeted _ T.authenticateIfNeeded
  | forced =>
    exact (T.mute0 startTLSNegotiation_steps).bind fun _ => .ite (T.failed _) (T.greet.bind fun _ => .ite (.pure _) (secure.bind fun _ =>
      .ite (.pure _) T.authenticateIfNeeded))
  | opportunistic =>
    refine greeted _ ?_
    unfold establishOpportunistic
    refine .gets fun r => ?_
    split
    · exact .stop T.j _
    · refine (T.log _ _).bind fun _ => Keeps.bind (Q := P) ?_ fun _ => .ite (.pure _) ((T.mute startTLSNegotiation_steps).bind fun _ => .ite (.pure _)
        (secure.bind fun _ => .ite (.pure _) T.authenticateIfNeeded))
      exact (T.log _ _).bind fun _ => T.raw _ _ _ (by decide) (by decide)
    · refine (T.log _ _).bind fun _ => (T.mute ?_).bind fun _ => .pure _
      exact Steps.modify fun s => Opening.keep s

theorem mailFromLoop (l c) : Keeps env P P J (mailFromLoop c l) := by
  induction l generalizing c with
  | nil => exact .pure _
  | cons f l ih => exact (T.log _ _).bind fun _ => (T.ptrFb _ _ _ (by decide) (by decide)).bind fun _ => .ite (.pure _) (.ite (.pure _) (ih _))

theorem addMailRecipients (l c) : Keeps env P P J (addMailRecipients c l) := by
  induction l generalizing c with
  | nil => exact .pure _
  | cons f l ih => exact (T.log _ _).bind fun _ => (T.ptrFb _ _ _ (by decide) (by decide)).bind fun _ => ih _

theorem recipientsLoop (l) : Keeps env P P J (recipientsLoop l) := by
  have := T.silent
  induction l with
  | nil => exact .pure _
  | cons a l ih =>
    unfold Model.recipientsLoop
    exact .ite ih ((T.mute (arrElems_steps _)).bind fun _ => (T.addMailRecipients _ _).bind fun _ => .ite (.pure _) ih)

theorem setMailRecipients (m) : Keeps env P P J (setMailRecipients m) := by
  unfold Model.setMailRecipients
  exact (T.mailFromLoop _ _).bind fun _ => .ite (.pure _) (T.recipientsLoop _)

theorem setMailHeaders (m) : Keeps env P P J (setMailHeaders m) := by
  have := T.silent
  have line : ∀ f v e, Keeps env P P J (addMailHeader f v e) := fun f v e => (T.log _ _).bind fun _ => T.content _ _
  have addr : ∀ f a, Keeps env P P J (addressHeader f a) := by
    intro f a
    unfold addressHeader
    exact .ite ((T.mute (arrElems_steps _)).bind fun _ => (line _ _ _).bind fun _ => .pure _) (.pure _)
  unfold Model.setMailHeaders
  exact (T.log _ _).bind fun _ => (T.ptrFb _ _ _ (by decide) (by decide)).bind fun _ => .ite (.pure _) ((line _ _ _).bind fun _ => .ite (.pure _)
    ((addr _ _).bind fun _ => (addr _ _).bind fun _ => (T.log _ _).bind fun _ => (T.content _ _).bind fun _ => .ite (.pure _)
    ((T.log _ _).bind fun _ => (T.content _ _).bind fun _ => .ite (.pure _) (.pure _))))

theorem sendPieces (l) : Keeps env P P J (sendPieces l) := by
  induction l with
  | nil => exact .pure _
  | cons a l ih => exact (T.content _ _).bind fun _ => .ite (.pure _) ih

theorem setMailBody (m) : Keeps env P P J (setMailBody m) := by
  have := T.silent
  unfold Model.setMailBody
  refine (T.log _ _).bind fun _ => (T.mute (fullBody_steps _)).bind fun body => Keeps.bind (Q := P) ?_ fun _ => .ite (.pure _)
    ((T.log _ _).bind fun _ => (T.ptrFb _ _ _ (by decide) (by decide)).bind fun _ => .ite (.pure _) (.gets fun _ => .ite (.pure _)
    ((T.mute sendQuit_steps).bind fun _ => .ite (.pure _) (.pure _))))
  exact .ite (T.sendPieces _) ((T.content _ _).bind fun _ => .ite (.pure _) (.pure _))

theorem sendMailConnected (m) : Keeps env P P J (sendMailConnected m) := by
  have := T.silent
  unfold Model.sendMailConnected sendMailRest
  exact (T.mute (Steps.modify fun s => Silent.connected s)).bind fun _ => (T.setMailRecipients m).bind fun _ => .ite (.pure _)
    ((T.setMailHeaders m).bind fun _ => .ite (.pure _) ((T.setMailBody m).bind fun _ => .ite (.pure _) (.gets fun _ => .ite (.pure _)
    ((T.mute cleanup_steps).bind fun _ => .pure _))))

theorem sendMail (m) : Keeps env P0 P J (sendMail m) := by
  unfold Model.sendMail
  refine .gets fun _ => .ite ?_ (T.establish.bind fun _ => .ite (.pure _) (T.sendMailConnected m))
  exact fun s hs => T.sendMailConnected m s (T.zero s hs)

end Talk

end Verif.Proofs
