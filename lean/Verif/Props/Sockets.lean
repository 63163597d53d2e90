import Verif.Proofs.Leaks
import Verif.Proofs.Ownership
import Verif.Spec.Script
/-!
# C45, C50: sockets are closed once, and belong to one client
-/
namespace Verif.Props
open Verif Verif.Model Verif.Spec Verif.Proofs

/-- A world like `scripted` in which the operating system numbers the sockets, starting with 5. -/
def numbered (env : Env) : Env := { env with socket := fun h => .val ((openSockets h).foldl (fun m fd => max m fd.toNat) 4 + 1) }

theorem foldl_max_ge (l : List Int) (m : Nat) : m ≤ l.foldl (fun m fd => max m fd.toNat) m ∧ ∀ fd ∈ l, fd.toNat ≤ l.foldl (fun m fd => max m fd.toNat) m := by
  induction l generalizing m with
  | nil => exact ⟨Nat.le_refl m, by simp⟩
  | cons x l ih =>
    have h := ih (max m x.toNat)
    rw [List.foldl_cons]
    refine ⟨by omega, ?_⟩
    intro fd hf
    rcases List.mem_cons.mp hf with hf | hf
    · subst hf; omega
    · exact h.2 fd hf

/-- Non-vacuity of `FreshSockets`. -/
theorem numbered_fresh (env : Env) : FreshSockets (numbered env) := by
  intro h v hv
  injection hv with hv
  intro hm
  have := (foldl_max_ge (openSockets h) 4).2 _ hm
  subst hv
  simp only [Int.toNat_natCast] at this
  omega

/-! ### C45 -/

/-- A fresh client in a fresh world. -/
theorem mine_start (k : Kind) (name : Bytes) (port : Nat) :
    Mine (fun _ => False) (fun _ => False) { client := Client.init k name port, hist := [] } where
  own := fun h => absurd rfl h
  closes := by intro a b fd h; simp at h
  others := nofun
  bio := nofun
  frees := by intro a b fd h; simp at h
  bios := nofun
  books := fun _ _ => rfl

theorem life_mine {env : Env} (hv : FreshSockets env) (k : Kind) (name : Bytes) (port : Nat) (cs : List Call) :
    Mine (fun _ => False) (fun _ => False) (life cs env { client := Client.init k name port, hist := [] }).2 := by
  have inst := mine_whole (F := fun _ => False) (G := fun _ => False) nofun
  exact (mine_calls nofun hv).life (fun s h => Pres.use (I := Mine (fun _ => False) (fun _ => False)) wh_cleanup (Mine.neutral h trivial))
    cs (fun _ _ => trivial) _ (mine_start k name port)

theorem life_noSock {env : Env} (cs : List Call) (s : St) : wp env (life cs) (fun _ s' => s'.client.sock = 0) (fun _ _ => True) s := by
  unfold life destroy
  rw [wp_bind]
  refine wp_mono (m := runCalls cs) (Q := fun _ _ => True) (E := fun _ _ => True) (by unfold wp; split <;> trivial) ?_ (fun _ _ _ => trivial)
  intro rs s1 _
  rw [wp_bind, wp_bind, wp_emit]
  exact wp_mono (cleanup_noSock _) (fun _ _ h => h) (fun _ _ _ => trivial)

/-- C45, the provable part, for every history of API calls, every server and every operating system that hands out unused
descriptors: the client only ever closes a socket that is open at that moment (or calls `close(-1)` after a failed `socket`), and
frees every TLS connection at most once. When the client is destroyed, every socket was closed exactly as often as it was opened,
or it was overwritten by a further connection attempt. Missing from the full claim: the overwritten sockets
(`C45_overwritten_leaks`), descriptor 0 (`C45_descriptor_zero`), and `close(-1)` (`C45_closes_minus_one`). -/
theorem C45_closed_once_partial {env : Env} (hv : FreshSockets env) (k : Kind) (name : Bytes) (port : Nat) (cs : List Call) :
    let r := life cs env { client := Client.init k name port, hist := [] }
    ClosesOpen r.2.hist ∧ FreesOnce r.2.hist ∧
    ∀ rs, r.1 = .ok rs → ∀ fd, 0 < fd → timesClosed fd r.2.hist = timesOpened fd r.2.hist ∨ Overwritten r.2.hist fd := by
  have hm := life_mine hv k name port cs
  refine ⟨hm.closes, hm.frees, ?_⟩
  intro rs hr fd h0
  have inst := tidy_whole
  have ht : Tidy (life cs env { client := Client.init k name port, hist := [] }).2 :=
    tidy_calls.life (fun s h => Pres.use (I := Tidy) wh_cleanup (Tidy.neutral h trivial)) cs (fun _ _ => trivial) _ (by intro fd hf; cases hf)
  have hz := life_noSock (env := env) cs { client := Client.init k name port, hist := [] }
  unfold wp at hz
  have hb := hm.books fd (by omega)
  by_cases ho : fd ∈ openSockets (life cs env { client := Client.init k name port, hist := [] }).2.hist
  · rcases ht fd ho with h | h | h
    · exfalso
      split at hz
      · next heq => rw [heq] at h; have h : fd = _ := h; rw [hz] at h; omega
      · next heq => rw [heq] at hr; cases hr
    · omega
    · exact .inr h
  · rw [if_neg ho] at hb
    exact .inl (by omega)

/-- When every mail was sent with success, every socket is closed exactly as often as it was opened. -/
theorem C45_successful_lives {env : Env} (hv : FreshSockets env) (k : Kind) (name : Bytes) (port : Nat) (cs : List Call) (rs : List CallRes)
    (hr : (life cs env { client := Client.init k name port, hist := [] }).1 = .ok rs) (hok : ∀ code, .returned code ∈ rs → code = 0) :
    ∀ fd, 0 < fd → timesClosed fd (life cs env { client := Client.init k name port, hist := [] }).2.hist =
      timesOpened fd (life cs env { client := Client.init k name port, hist := [] }).2.hist := by
  intro fd h0
  have hm := life_mine hv k name port cs
  have inst := clean_whole
  have hw : wp env (life cs) (fun rs s' => (∀ code, .returned code ∈ rs → code = 0) → Clean s') (fun _ _ => True)
      { client := Client.init k name port, hist := [] } := by
    unfold life destroy
    rw [wp_bind]
    refine wp_mono (runCalls_clean cs _ (by intro fd hf; cases hf) (.inl rfl)) ?_ (fun _ _ _ => trivial)
    intro rs s1 h1
    rw [wp_bind, wp_bind, wp_emit]
    by_cases hall : ∀ code, .returned code ∈ rs → code = 0
    · refine wp_mono (Pres.use (I := Clean) wh_cleanup (Clean.neutral (h1 hall) (e := .destroy) trivial)) ?_ (fun _ _ _ => trivial)
      exact fun _ _ h _ => h
    · refine wp_mono (m := cleanup) (Q := fun _ _ => True) (E := fun _ _ => True) (by unfold wp; split <;> trivial) ?_ (fun _ _ _ => trivial)
      exact fun _ _ _ h => absurd h hall
  have hz := life_noSock (env := env) cs { client := Client.init k name port, hist := [] }
  unfold wp at hw hz
  have hb := hm.books fd (by omega)
  split at hw
  · next heq =>
    rw [heq] at hr hb hz ⊢
    injection hr with hr
    subst hr
    have hc := hw hok
    rw [if_neg] at hb
    · exact hb.symm
    · intro ho
      rcases hc fd ho with h | h
      · have hz : _ = (0 : Int) := hz
        omega
      · omega
  · next heq => rw [heq] at hr; cases hr

/-- Two failed attempts to connect. -/
def refusingTalk : Env := numbered { scripted [] with connect := fun _ _ _ => .err 111 }

/-- C45 is false: after a refused connection the socket stays open, the next attempt overwrites it, and it is never closed. -/
theorem C45_overwritten_leaks : FreshSockets refusingTalk ∧
    (let r := life [.sendMail mail, .sendMail mail] refusingTalk (fresh .smtp)
     r.1 = .ok [.returned (-2), .returned (-2)] ∧ timesOpened 5 r.2.hist = 1 ∧ timesClosed 5 r.2.hist = 0 ∧
     timesOpened 6 r.2.hist = 1 ∧ timesClosed 6 r.2.hist = 1) :=
  ⟨numbered_fresh _, by decide +kernel⟩

/-- The same for the client that encrypts, after a failed handshake check that does not clean up. -/
theorem C45_overwritten_leaks_tls :
    (let r := life [.sendMail mail, .sendMail mail] (numbered (scripted [] (tls := fun | .verifyPaths => 0 | _ => 1))) (fresh .forced)
     r.1 = .ok [.returned (-54), .returned (-54)] ∧ timesOpened 5 r.2.hist = 1 ∧ timesClosed 5 r.2.hist = 0) := by decide +kernel

/-- A descriptor 0 counts as no socket and is never closed. -/
theorem C45_descriptor_zero :
    (let r := life [.sendMail mail] { scripted (clear [b!"220 hi\r\n"]) with socket := fun _ => .val 0 } (fresh .smtp)
     timesOpened 0 r.2.hist = 1 ∧ timesClosed 0 r.2.hist = 0) := by decide +kernel

/-- After a failed `socket` the client closes descriptor -1, which it did not open. -/
theorem C45_closes_minus_one :
    (let r := life [.sendMail mail] { scripted [] with socket := fun _ => .err 24 } (fresh .smtp)
     r.1 = .ok [.returned (-1)] ∧ timesOpened (-1) r.2.hist = 0 ∧ timesClosed (-1) r.2.hist = 1) := by decide +kernel

/-- A complete conversation in clear. -/
def wholeTalk : List RecvRes :=
  [.data b!"220 hi\r\n"] ++ clear [b!"250-x\r\n250 OK\r\n", b!"250 ok\r\n", b!"250 ok\r\n", b!"354 go\r\n", b!"250 ok\r\n"]

/-- Non-vacuity of `C45_successful_lives`: two mails, two connections, each closed once. -/
example : (let r := life [.sendMail mail, .sendMail mail] (numbered (scripted (wholeTalk ++ wholeTalk))) (fresh .smtp)
    (r.1, timesOpened 5 r.2.hist, timesClosed 5 r.2.hist)) = (.ok [.returned 0, .returned 0], 2, 2) := by decide +kernel

/-! ### C50 -/

/-- C50: whatever a program does with its client objects (construction, copies, moves, assignments, API calls against any
server, destruction), no two objects hold the same socket or TLS connection, what an object holds is still open, every `close` is
about a socket that is open, and no TLS connection is freed twice. -/
theorem C50_one_owner {env : Env} (hv : FreshSockets env) (ops : List ObjOp) :
    let w := (objRun ops env .empty).2
    Exclusive w ∧ StillOpen w ∧ ClosesOpen w.hist ∧ FreesOnce w.hist := by
  have h := objRun_owners hv ops owners_empty
  refine ⟨h.excl, ?_, h.closes, h.frees⟩
  intro i c hi
  exact ⟨fun h0 => ((h.own i c hi).1 (by omega)).resolve_right (by omega), fun b hb => ((h.own i c hi).2 b hb).2⟩

/-- C50, spelled out: between two times a descriptor is closed, it was opened again. -/
theorem C50_never_closed_twice {env : Env} (hv : FreshSockets env) (ops : List ObjOp) (a b c : Hist) (fd : Int) (h0 : fd ≠ -1)
    (h : (objRun ops env .empty).2.hist = a ++ .close fd :: (b ++ .close fd :: c)) : ∃ v : Nat, (v : Int) = fd ∧ .socket (.val v) ∈ b := by
  have hc := (C50_one_owner hv ops).2.2.1 (a ++ .close fd :: b) c fd (by rw [h]; simp)
  obtain ⟨a', b', v, h1, h2, h3⟩ := open_since (hc.resolve_right h0)
  refine ⟨v, h2, ?_⟩
  rcases List.append_eq_append_iff.mp h1 with ⟨x, hx, hy⟩ | ⟨x, hx, hy⟩
  · cases x with
    | nil => injection hy with hy; cases hy
    | cons e x =>
      injection hy with _ hy
      rw [hy]
      simp
  · exfalso
    cases x with
    | nil => injection hy with hy; cases hy
    | cons e x =>
      injection hy with hy1 hy2
      apply h3
      rw [hy2]
      simp

/-- The copy of a client holds no connection, and the original keeps its own. -/
theorem C50_copy {env : Env} {w w' : Objects} {i : Nat} {c : Client} (hi : w.get i = some c) (h : objStep (.copy i) env w = (.ok (), w')) :
    w'.get i = some c ∧ ∃ c', w'.get w.clients.length = some c' ∧ HoldsNone c' := by
  unfold objStep at h
  simp only [hi] at h
  have hl := get_length hi
  split at h
  · cases h
  · next c' hc =>
    injection h with _ h
    subst h
    refine ⟨?_, c', ?_, copied_none hc⟩
    · unfold Objects.get at hi ⊢
      simp only
      rw [List.getElem?_append_left hl]
      exact hi
    · simp [Objects.get]

/-- The client that was moved from holds no connection; the new one has it. -/
theorem C50_move {env : Env} {w : Objects} {i : Nat} {c : Client} (hi : w.get i = some c) :
    (∃ d, (objStep (.move i) env w).2.get i = some d ∧ HoldsNone d) ∧
    ∃ d, (objStep (.move i) env w).2.get w.clients.length = some d ∧ d.sock = c.sock ∧ d.bio = c.bio ∧ d.ctx = c.ctx ∧ d.isConnected = c.isConnected := by
  have hl := get_length hi
  unfold objStep
  simp only [hi]
  refine ⟨⟨c.movedFrom, ?_, movedFrom_none c⟩, c.moved, ?_, rfl, rfl, rfl, rfl⟩
  · unfold Objects.get
    simp only
    rw [List.getElem?_append_left (by simpa using hl), List.getElem?_set_self hl]
    rfl
  · unfold Objects.get
    simp only
    rw [List.getElem?_append_right (by simp)]
    simp

/-- A client that was assigned to holds no connection; the other one keeps its own. -/
theorem C50_assign {env : Env} {w w' : Objects} {i j : Nat} {c d : Client} (hi : w.get i = some d) (hj : w.get j = some c) (hij : i ≠ j)
    (hk : d.kind = c.kind) (h : objStep (.assign i j) env w = (.ok (), w')) :
    w'.get j = some c ∧ ∃ d', w'.get i = some d' ∧ HoldsNone d' := by
  have hl := get_length hi
  unfold objStep at h
  simp only [hi, hj, hij, hk, ne_eq, not_true_eq_false, or_self, if_false] at h
  split at h
  · cases h
  · next c' hc =>
    injection h with _ h
    subst h
    refine ⟨?_, c', ?_, copied_none hc⟩
    · unfold Objects.get at hj ⊢
      simp only
      rw [List.getElem?_set_ne hij]
      exact hj
    · unfold Objects.get
      simp only
      rw [List.getElem?_set_self hl]
      rfl

/-- Move assignment hands the connection over. -/
theorem C50_move_assign {env : Env} {w : Objects} {i j : Nat} {c d : Client} (hi : w.get i = some d) (hj : w.get j = some c) (hij : i ≠ j)
    (hk : d.kind = c.kind) :
    (∃ e, (objStep (.moveAssign i j) env w).2.get j = some e ∧ HoldsNone e) ∧
    ∃ e, (objStep (.moveAssign i j) env w).2.get i = some e ∧ e.sock = c.sock ∧ e.bio = c.bio ∧ e.ctx = c.ctx ∧ e.isConnected = c.isConnected := by
  have hl := get_length hi
  have hl' := get_length hj
  unfold objStep
  simp only [hi, hj, hij, hk, ne_eq, not_true_eq_false, or_self, if_false]
  refine ⟨⟨c.movedFrom, ?_, movedFrom_none c⟩, c.moved, ?_, rfl, rfl, rfl, rfl⟩
  · unfold Objects.get
    simp only
    rw [List.getElem?_set_self (by simpa using hl')]
    rfl
  · unfold Objects.get
    simp only
    rw [List.getElem?_set_ne (fun h => hij h.symm), List.getElem?_set_self hl]
    rfl

/-- A server that serves batch mode on one connection. -/
def batchTalk : List RecvRes := wholeTalk ++ clear [b!"250 ok\r\n", b!"250 ok\r\n", b!"354 go\r\n", b!"250 ok\r\n"]

/-- A program that sends in batch mode, copies, moves, and sends again through the moved object. -/
def mover : List ObjOp :=
  [.create .smtp (some b!"mail.org") 25, .call 0 (.setBatchMode true), .call 0 (.sendMail mail), .copy 0, .move 0, .call 2 (.sendMail mail),
   .destroy 0, .destroy 1, .destroy 2]

/-- Non-vacuity: the connection opened by the first object is used and closed by the one it was moved to. -/
example : (let r := objRun mover (numbered (scripted batchTalk)) .empty
    (r.1, r.2.clients, timesOpened 5 r.2.hist, timesClosed 5 r.2.hist, writes r.2.hist)) = (.ok (), [none, none, none], 1, 1, 20) := by decide +kernel

/-- Assigning to a connected client leaves its socket open for ever: one owner, but then none. -/
theorem C50_assignment_leaks :
    (let r := objRun [.create .smtp (some b!"mail.org") 25, .create .smtp (some b!"mail.org") 25, .call 0 (.setBatchMode true), .call 0 (.sendMail mail),
        .assign 0 1, .destroy 0, .destroy 1] (numbered (scripted batchTalk)) .empty
     r.1 = .ok () ∧ r.2.clients = [none, none] ∧ timesOpened 5 r.2.hist = 1 ∧ timesClosed 5 r.2.hist = 0) := by decide +kernel

/-- Copying a client that was moved from reads through a null pointer. -/
theorem C50_copy_of_moved :
    (objRun [.create .smtp (some b!"mail.org") 25, .move 0, .copy 0] (scripted []) .empty).1 = .stop (.ub .nullDeref) := by decide +kernel

end Verif.Props
