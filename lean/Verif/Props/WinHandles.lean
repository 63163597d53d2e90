import Verif.Proofs.WinHandles
import Verif.Props.WinSock
/-!
# C81: sockets on Windows
-/
namespace Verif.Props
open Verif Verif.Model Verif.Spec Verif.Proofs

/-- **C81** (partial). In every program over any number of objects, with copies, moves and assignments, and whatever fails: each socket that is connected, shut down or closed is open at that
moment (or is -1, after a failed `socket`), so none is closed twice and none of another part of the program is touched; no two objects hold the same socket; and what an object
holds is open. -/
theorem C81_one_holder_partial {env : WinEnv} (hf : FreshHandles env) (ops : List WinOp) :
    UsesOpen (winRun ops env .empty).2.hist ∧ OneHolder (winRun ops env .empty).2 ∧ HoldsOpen (winRun ops env .empty).2 := by
  have h := winRun_owners hf ops ownersW_empty
  refine ⟨h.uses, h.one, fun i c hi => ?_⟩
  by_cases h0 : c.base.sock = 0
  · exact .inl h0
  · by_cases h1 : c.base.sock = -1
    · exact .inr (.inl h1)
    · exact .inr (.inr (h.holds i c hi h0 h1).2)

/-- **C81** (partial). Programs that make objects, copy them, move them, send with them and destroy them, never assign, whose refused sessions are all closed and whose connections are all
accepted, leave no socket open when all objects are destroyed; 0 is not known as a socket. The full claim has no such conditions; see `C81_refused_leaks`, `C81_assign_leaks` and
`C81_left_open_leaks`. -/
theorem C81_all_closed_partial {env : WinEnv} (hf : FreshHandles env) (ops : List WinOp)
    (hops : ∀ op ∈ ops, ∀ i j, op ≠ .assign i j ∧ op ≠ .moveAssign i j ∧ op ≠ .send i .refused)
    (hr : (winRun ops env .empty).1 = .ok ()) (hw : ConnectsWork (winRun ops env .empty).2.hist) (hgone : WinWorld.allGone (winRun ops env .empty).2) :
    ∀ k ∈ openHandles (winRun ops env .empty).2.hist, k = 0 := by
  have hkeep : ∀ op ∈ ops, keepsSockets op = true := by
    intro op hop
    cases op with
    | assign i j => exact absurd rfl (hops _ hop i j).1
    | moveAssign i j => exact absurd rfl (hops _ hop i j).2.1
    | send i e =>
      cases e with
      | refused => exact absurd rfl (hops _ hop i 0).2.2
      | _ => rfl
    | _ => rfl
  have h := winRun_allHeld hf ops hkeep ownersW_empty ⟨fun k hk => by simp [WinWorld.empty, openHandles] at hk, fun i c hi => by simp [WinWorld.empty, WinWorld.get] at hi⟩
    (w' := (winRun ops env .empty).2) (by rw [← hr]) hw
  intro k hk
  rcases h.full k hk with h0 | ⟨i, c, hi, -⟩
  · exact h0
  · rw [hgone i] at hi
    cases hi

/-- The same system with handles larger than all those open. -/
def freshOn (env : WinEnv) : WinEnv :=
  { env with socket := fun h => if (openHandles h).sum < 1000000 then (openHandles h).sum + 300 else invalidSocket }

theorem le_sum {l : List Nat} {k : Nat} (h : k ∈ l) : k ≤ l.sum := by
  induction l with
  | nil => cases h
  | cons a l ih =>
    rcases List.mem_cons.mp h with rfl | h
    · simp
    · have := ih h; simp; omega

theorem freshOn_fresh (env : WinEnv) : FreshHandles (freshOn env) := by
  intro h
  have e : (freshOn env).socket h = if (openHandles h).sum < 1000000 then (openHandles h).sum + 300 else invalidSocket := rfl
  rw [e]
  split
  · refine ⟨fun hm => ?_, .inl (by omega)⟩
    have := le_sum hm
    omega
  · exact ⟨not_invalid h, .inr (by unfold invalidSocket; omega)⟩

/-- The handles made, in order. -/
def handedOut (h : WinHist) : List Nat := h.filterMap fun e => match e with | .socket k => some k | _ => none

/-- An ordinary program with a move. -/
def winMoving : List WinOp :=
  [.create .smtp b!"mail" 25, .send 0 .kept, .copy 0, .move 0, .send 1 .refusedClosed, .send 2 .closed, .destroy 0, .destroy 1, .destroy 2]

/-- It meets the hypotheses of both theorems; two sockets are opened and closed. -/
example : FreshHandles (freshOn winFine) ∧ (∀ op ∈ winMoving, ∀ i j, op ≠ .assign i j ∧ op ≠ .moveAssign i j ∧ op ≠ .send i .refused) ∧
    (winRun winMoving (freshOn winFine) .empty).1 = .ok () ∧ (winRun winMoving (freshOn winFine) .empty).2.clients = [none, none, none] ∧
    handedOut (winRun winMoving (freshOn winFine) .empty).2.hist = [300, 600] ∧
    (winRun winMoving (freshOn winFine) .empty).2.hist.all (fun e => match e with | .connect _ ok => ok | _ => true) = true ∧
    .closesocket 300 ∈ (winRun winMoving (freshOn winFine) .empty).2.hist ∧ .closesocket 600 ∈ (winRun winMoving (freshOn winFine) .empty).2.hist := by
  refine ⟨freshOn_fresh _, ?_, by decide +kernel⟩
  intro op hop
  simp only [winMoving, List.mem_cons, List.not_mem_nil, or_false] at hop
  rcases hop with rfl | rfl | rfl | rfl | rfl | rfl | rfl | rfl | rfl <;> simp

/-! ### What goes wrong -/

/-- **C81**, refuted part. A refused connection leaves its socket in the object, and the next attempt overwrites it: with every retry one more socket stays open, although the object is destroyed. -/
theorem C81_refused_leaks : FreshHandles (freshOn winNoServer) ∧
    (let r := winRun [.create .smtp b!"mail" 25, .send 0 .closed, .send 0 .closed, .send 0 .closed, .destroy 0] (freshOn winNoServer) .empty
     r.1 = .ok () ∧ r.2.clients = [none] ∧ handedOut r.2.hist = [300, 600, 1200] ∧ openHandles r.2.hist = [600, 300]) :=
  ⟨freshOn_fresh _, by decide +kernel⟩

/-- **C81**, refuted part. Assigning to a connected object. -/
theorem C81_assign_leaks : FreshHandles (freshOn winFine) ∧
    (let r := winRun [.create .smtp b!"mail" 25, .create .smtp b!"other" 25, .send 0 .kept, .assign 0 1, .destroy 1, .destroy 0] (freshOn winFine) .empty
     r.1 = .ok () ∧ r.2.clients = [none, none] ∧ openHandles r.2.hist = [300]) :=
  ⟨freshOn_fresh _, by decide +kernel⟩

/-- **C81**, refuted part. A session refused without `cleanup`, then another one. -/
theorem C81_left_open_leaks : FreshHandles (freshOn winFine) ∧
    (let r := winRun [.create .smtp b!"mail" 25, .send 0 .refused, .send 0 .closed, .destroy 0] (freshOn winFine) .empty
     r.1 = .ok () ∧ r.2.clients = [none] ∧ openHandles r.2.hist = [300]) :=
  ⟨freshOn_fresh _, by decide +kernel⟩

/-- **C81**, refuted part. After a failed `socket` the destructor shuts down and closes -1. -/
theorem C81_closes_minus_one :
    (let r := winRun [.create .smtp b!"mail" 25, .send 0 .closed, .destroy 0] { winFine with socket := fun _ => invalidSocket } .empty
     r.1 = .ok () ∧ .shutdown (-1) ∈ r.2.hist ∧ .closesocket (-1) ∈ r.2.hist) := by decide +kernel

end Verif.Props
