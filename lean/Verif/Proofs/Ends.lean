import Verif.Proofs.Deliver
/-!
# Relations between the beginning and the end of code that returns

Like `Steps`, but nothing is said about runs that stop. A command and its reply, and a piece of content, are single steps here.
-/
namespace Verif.Proofs
open Verif Verif.Model Verif.Spec

variable {α β : Type} {env : Env} {R : St → St → Prop}

/-- Every run of `m` that returns goes from a state to one related to it. -/
structure Ends (env : Env) (R : St → St → Prop) (m : M α) : Prop where
  run : ∀ s, post env m (fun _ => R s) s

namespace Ends
theorem of_steps {m : M α} (h : Steps env R m) : Ends env R m := ⟨fun s => post_steps h s⟩
theorem pure [hp : Preord R] (a : α) : Ends env R (Pure.pure a : M α) := ⟨fun s => hp.refl s⟩
theorem bind [hp : Preord R] {m : M β} {f : β → M α} (hm : Ends env R m) (hf : ∀ b, Ends env R (f b)) : Ends env R (m >>= f) := by
  constructor
  intro s
  unfold post
  rw [wp_bind]
  exact wp_mono (hm.run s) (fun b s' h => wp_mono ((hf b).run s') (fun _ _ h' => hp.trans h h') (fun _ _ h' => h')) (fun _ _ h => h)
theorem stop (e : Stop) : Ends env R (M.stop e : M α) := ⟨fun _ => trivial⟩
theorem gets [hp : Preord R] (f : Client → α) : Ends env R (M.gets f) := ⟨fun s => hp.refl s⟩
theorem env' [hp : Preord R] (f : Env → α) : Ends env R (M.env f) := ⟨fun s => hp.refl s⟩
theorem ask' [hp : Preord R] (f : Env → Hist → α) : Ends env R (M.ask' f) := ⟨fun s => hp.refl s⟩
theorem ite {c : Prop} [Decidable c] {a b : M α} (ha : Ends env R a) (hb : Ends env R b) : Ends env R (if c then a else b) := by
  split <;> assumption
theorem emit {e : Ev} (h : ∀ s, R s { s with hist := s.hist ++ [e] }) : Ends env R (M.emit e) := ⟨fun s => h s⟩
theorem modify {f : Client → Client} (h : ∀ s, R s { s with client := f s.client }) : Ends env R (M.modify f) := ⟨fun s => h s⟩
end Ends

/-- Prove `Ends` goals by following the structure of the program. -/
syntax "ends" "[" term,* "]" : tactic
macro_rules
  | `(tactic| ends [$ts,*]) => do
    let alts ← ts.getElems.mapM fun t => `(tacticSeq| with_reducible apply $t)
    `(tactic| repeat' (first
        $[| $alts:tacticSeq]*
        | assumption
        | with_reducible apply Ends.pure | with_reducible apply Ends.stop | with_reducible apply Ends.gets
        | with_reducible apply Ends.env' | with_reducible apply Ends.ask'
        | with_reducible apply Ends.bind | with_reducible apply Ends.ite
        | intro _
        | split))

/-- Relations kept by every exchange with the server during a transmission. -/
class Exchanging (env : Env) (R : St → St → Prop) : Prop extends Filing R where
  command : ∀ d e t, e ≠ 0 → Ends env R (sendPtrFb d e t)
  content : ∀ d e, Ends env R (sendPtr .content d e)

section
variable [hR : Exchanging env R]

theorem addLog_finishes (i p : Bytes) : Ends env R (addLog i p) := .of_steps (addLog_steps i p)
theorem arrElems_finishes (a : Arr α) : Ends env R (arrElems a) := .of_steps (arrElems_steps a)
theorem fullBody_finishes (m) : Ends env R (fullBody m) := .of_steps (fullBody_steps m)

theorem mailFromLoop_finishes (c l) : Ends env R (mailFromLoop c l) := by
  induction l generalizing c with
  | nil => unfold mailFromLoop; ends []
  | cons f l ih => unfold mailFromLoop; ends [addLog_finishes, hR.command, ih, (by decide : (-85 : Int) ≠ 0)]

theorem addMailRecipients_finishes (c l) : Ends env R (addMailRecipients c l) := by
  induction l generalizing c with
  | nil => unfold addMailRecipients; ends []
  | cons f l ih => unfold addMailRecipients; ends [addLog_finishes, hR.command, ih, (by decide : (-87 : Int) ≠ 0)]

theorem recipientsLoop_finishes (l) : Ends env R (recipientsLoop l) := by
  induction l with
  | nil => unfold recipientsLoop; ends []
  | cons a l ih => unfold recipientsLoop; ends [arrElems_finishes, addMailRecipients_finishes]

theorem setMailRecipients_finishes (m) : Ends env R (setMailRecipients m) := by
  unfold setMailRecipients; ends [mailFromLoop_finishes, recipientsLoop_finishes]

theorem setMailHeaders_finishes (m) : Ends env R (setMailHeaders m) := by
  unfold setMailHeaders addressHeader addMailHeader
  ends [addLog_finishes, hR.command, hR.content, arrElems_finishes, (by decide : (-89 : Int) ≠ 0)]

theorem sendPieces_finishes (l) : Ends env R (sendPieces l) := by
  induction l with
  | nil => unfold sendPieces; ends []
  | cons a l ih => unfold sendPieces; ends [hR.content]

theorem sendBodyText_finishes (b) : Ends env R (sendBodyText b) := by
  unfold sendBodyText; ends [hR.content, sendPieces_finishes]

end

end Verif.Proofs
