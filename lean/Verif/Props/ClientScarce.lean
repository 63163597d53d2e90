import Verif.Proofs.ClientSpoilt
import Verif.Props.ClientMemory
import Verif.Props.Scarce
/-!
# C87: clients when memory runs out

What `std::bad_alloc` leaves behind when it comes out of a constructor, an assignment, a setter or a session of a client.
-/
namespace Verif.Props
open Verif Verif.Model Verif.Spec Verif.Proofs

/-- **C87** (partial). Whichever attempts to get memory fail, a program that catches the exceptions, follows the rules of plain values and no longer uses a client
whose assignment or `setServerName` failed, whose credential was to be replaced by a `setCredentials` that failed, or whose session failed while it replaced the log or the
last response, touches no memory that is not its own; moves and destructors do not fail; and at the end every other client shows exactly what the operations that succeeded give it. In particular a session that runs
out of memory while it writes the log or reads the authentication options leaves the client as it was, and so does one that starts the first log or stores the first
response, and a `setCredentials` on a client without a credential. The full claim would let the program use, or at least
destroy, every client after a failure (`C87_response_then_destroyed`, `C87_name_then_read`, `C87_log_then_destroyed`, `C87_credential_then_destroyed`,
`C87_assigned_then_destroyed`), and would lose no memory (`C87_copy_loses`). -/
theorem C87_clients_out_of_memory_partial (g : Nat → Bool) (ops : List COp) (n : Nat)
    (hc : Sparing noClientValues ops (tryRun g noClients (n, Heap.empty) ops).1) :
    ∃ o h, (tryRun g noClients (n, Heap.empty) ops).2 = .ok (o, h) ∧ FailedRightly ops (tryRun g noClients (n, Heap.empty) ops).1 ∧
      ∀ x v, outcomes noClientValues ops (tryRun g noClients (n, Heap.empty) ops).1 x = some v → ∃ c, o x = some c ∧ clientFace h c = v := by
  obtain ⟨o, h, leaked, h1, h2, h3⟩ := tryRun_refines (g := g) ops noClients noClientValues (n, Heap.empty) [] (by
    have : seen noClientValues noClients = fun _ => none := by funext x; rfl
    rw [this]
    exact CRel.empty) hc
  refine ⟨o, h, h1, h2, fun x v hv => ?_⟩
  obtain ⟨c, hx, hf⟩ := crel_face h3 hv
  refine ⟨c, ?_, hf⟩
  unfold seen at hx
  split at hx
  · cases hx
  · exact hx

/-- **C87.** With plenty of memory no operation fails, and a program does what C59 and C60 are about. -/
theorem C87_plenty_of_memory (ops : List COp) (n : Nat) :
    false ∉ (tryRun (fun _ => true) noClients (n, Heap.empty) ops).1 ∧
    (tryRun (fun _ => true) noClients (n, Heap.empty) ops).2 = crun noClients ops Heap.empty :=
  ⟨tryRun_all ops noClients _, tryRun_plenty ops noClients _⟩

/-- **C87**, refuted part, for all programs. At whatever point of whatever program `setCredentials` runs out of memory while it replaces a credential, or a session
while it replaces the log of the previous session or the last response of the server: whatever operations on other clients follow, the destructor of the client
cannot run without breaking the rules, and C++ runs it whatever the program does. -/
theorem C87_spoilt_for_good (g : Nat → Bool) (ops more : List COp) (n x : Nat) (p : COp)
    (hc : Sparing noClientValues ops (tryRun g noClients (n, Heap.empty) ops).1)
    (hsp : ruined (outcomes noClientValues ops (tryRun g noClients (n, Heap.empty) ops).1) p = some x)
    (hf : (tryRun g noClients (n, Heap.empty) (ops ++ [p])).1 = (tryRun g noClients (n, Heap.empty) ops).1 ++ [false])
    (hm : ∀ q ∈ more, x ∉ changes q) :
    ∃ e, (tryRun g noClients (n, Heap.empty) (ops ++ p :: (more ++ [.destroy x]))).2 = .error e := by
  obtain ⟨o, h, leaked, h1, h2, h3⟩ := tryRun_refines (g := g) ops noClients noClientValues (n, Heap.empty) [] (by
    have : seen noClientValues noClients = fun _ => none := by funext x; rfl
    rw [this]
    exact CRel.empty) hc
  obtain ⟨k, hk⟩ := tryRun_split ops noClients o (n, Heap.empty) h h1
  rw [hk] at hf ⊢
  have hf : (tryRun g o (k, h) [p]).1 = [false] := List.append_cancel_left hf
  simp only [tryRun] at hf ⊢
  cases e : tryStep o p g (k, h) with
  | error y => rw [e] at hf; cases hf
  | ok r =>
    obtain ⟨q, st1⟩ := r
    rw [e] at hf
    cases q with
    | ok o1 => cases hf
    | error o1 =>
      obtain ⟨c, ho, hd⟩ := ruined_dangling (st := (k, h)) h3 hsp e
      exact tryRun_dangling more o1 st1 hm ho hd

/-- Its hypotheses hold after the second reply of `twoReplies` below. -/
example : ruined (outcomes noClientValues [.create 0 (.text b!"mail.org"), .session 0 .freshLog, .session 0 (.response b!"220 ready")]
      (tryRun (allBut 4) noClients (0, Heap.empty) [.create 0 (.text b!"mail.org"), .session 0 .freshLog, .session 0 (.response b!"220 ready")]).1)
      (.session 0 (.response b!"250 ok")) = some 0 ∧
    (tryRun (allBut 4) noClients (0, Heap.empty) [.create 0 (.text b!"mail.org"), .session 0 .freshLog, .session 0 (.response b!"220 ready"),
      .session 0 (.response b!"250 ok")]).1 = [true, true, true, false] := by decide +kernel

/-- `Sparing` as a test. -/
def sparing (s : ClientValues) : List COp → List Bool → Bool
  | [], _ => true
  | p :: ps, oks => match clientStep s p with
    | none => false
    | some s' => match oks with
      | [] => true
      | ok :: rest => sparing (outcome s s' p ok) ps rest

theorem of_sparing {s : ClientValues} {ops : List COp} {oks : List Bool} (h : sparing s ops oks = true) : Sparing s ops oks := by
  induction ops generalizing s oks with
  | nil => trivial
  | cons p ps ih =>
    simp only [sparing] at h
    cases hv : clientStep s p with
    | none => rw [hv] at h; cases h
    | some s' =>
      rw [hv] at h
      refine ⟨s', hv, ?_⟩
      cases oks with
      | nil => trivial
      | cons ok rest => exact ih h

/-- A client, two replies of the server, and the end of the client. -/
def twoReplies : List COp :=
  [ .create 0 (.text b!"mail.org"), .session 0 .freshLog, .session 0 (.response b!"220 ready"), .session 0 (.response b!"250 ok"), .destroy 0 ]

/-- With enough memory the program is fine. -/
example : (tryRun (fun _ => true) noClients (0, Heap.empty) twoReplies).1 = [true, true, true, true, true] := by decide +kernel

/-- **C87**, refuted part. A session that runs out of memory while it stores the second reply of the server leaves a client whose destructor deletes the first
reply again. C++ runs the destructor whatever the program does. -/
theorem C87_response_then_destroyed :
    (tryRun (allBut 4) noClients (0, Heap.empty) twoReplies).1 = [true, true, true, false] ∧
    (tryRun (allBut 4) noClients (0, Heap.empty) twoReplies).2 = .error .doubleFree :=
  ⟨by decide +kernel, of_faultOf (by decide +kernel)⟩

/-- **C87**, refuted part: the second `sendMail` of a client runs out of memory when it starts a new log. -/
theorem C87_log_then_destroyed :
    (tryRun (allBut 3) noClients (0, Heap.empty) [.create 0 (.text b!"mail.org"), .session 0 .freshLog, .session 0 .freshLog, .destroy 0]).1 = [true, true, false] ∧
    (tryRun (allBut 3) noClients (0, Heap.empty) [.create 0 (.text b!"mail.org"), .session 0 .freshLog, .session 0 .freshLog, .destroy 0]).2 = .error .doubleFree :=
  ⟨by decide +kernel, of_faultOf (by decide +kernel)⟩

/-- **C87**, refuted part: after a `setServerName` that ran out of memory, `getServerName` gives out a text that is no longer there. -/
theorem C87_name_then_read :
    (tryRun (allBut 3) noClients (0, Heap.empty) [.create 0 (.text b!"mail.org"), .setName 0 (.text b!"mx.org"), .create 1 (.nameOf 0)]).1 = [true, false] ∧
    (tryRun (allBut 3) noClients (0, Heap.empty) [.create 0 (.text b!"mail.org"), .setName 0 (.text b!"mx.org"), .create 1 (.nameOf 0)]).2 = .error .deadRead :=
  ⟨by decide +kernel, of_faultOf (by decide +kernel)⟩

/-- A client that gets a credential and then another one, for which three blocks are needed. -/
def twoCredentials : List COp :=
  [ .create 0 (.text b!"mail.org"), .setCredential 0 (.texts b!"ann" b!"secret"), .setCredential 0 (.texts b!"bob" b!"hidden"), .destroy 0 ]

/-- The hypotheses of `C87_spoilt_for_good` hold when the second credential fails and other clients come and go before the end. -/
example : ruined (outcomes noClientValues (twoCredentials.take 2) (tryRun (allBut 6) noClients (0, Heap.empty) (twoCredentials.take 2)).1)
      (.setCredential 0 (.texts b!"bob" b!"hidden")) = some 0 ∧
    (tryRun (allBut 6) noClients (0, Heap.empty) (twoCredentials.take 3)).1 = [true, true, false] ∧
    (∀ q ∈ [COp.create 1 (.text b!"mx.org"), .copy 2 1, .destroy 1], 0 ∉ changes q) := by decide +kernel

/-- **C87**, refuted part: after a `setCredentials` that ran out of memory, the destructor reads and deletes the old credential again. -/
theorem C87_credential_then_destroyed :
    (tryRun (allBut 6) noClients (0, Heap.empty) twoCredentials).1 = [true, true, false] ∧
    (tryRun (allBut 6) noClients (0, Heap.empty) twoCredentials).2 = .error .deadRead :=
  ⟨by decide +kernel, of_faultOf (by decide +kernel)⟩

/-- **C87**, refuted part: after an assignment that ran out of memory, the destructor deletes the old name again. -/
theorem C87_assigned_then_destroyed :
    (tryRun (allBut 4) noClients (0, Heap.empty) [.create 0 (.text b!"a.org"), .create 1 (.text b!"b.org"), .assign 0 1, .destroy 0]).1 = [true, true, false] ∧
    (tryRun (allBut 4) noClients (0, Heap.empty) [.create 0 (.text b!"a.org"), .create 1 (.text b!"b.org"), .assign 0 1, .destroy 0]).2 = .error .doubleFree :=
  ⟨by decide +kernel, of_faultOf (by decide +kernel)⟩

/-- **C87**, refuted part. A copy that fails after its first allocation leaves a block that no client owns: here the copied name, when everything else is destroyed. -/
theorem C87_copy_loses :
    ∃ o h, tryRun (allBut 4) noClients (0, Heap.empty) [.create 0 (.text b!"a.org"), .session 0 .freshLog, .copy 1 0, .destroy 0] = ([true, true, false, true], .ok (o, h)) ∧
      (∀ x, o x = none) ∧ h.mem 2 = some (.chars b!"a.org") := by
  refine ⟨_, _, rfl, fun x => ?_, rfl⟩
  simp only [setClient, noClients]
  split <;> first | rfl | (split <;> rfl)

/-- A program that spares spoilt clients, in which eight operations fail: a constructor, the first log, an entry of the log, a copy, the options of a reply, the
first response, another response, and a setter. The name of the client that is spoilt by the second response is given to a new one. -/
def hardSessions : List COp :=
  [ .create 0 (.text b!"a.org"), .create 0 (.text b!"a.org"),
    .session 0 .freshLog, .session 0 .freshLog, .session 0 (.log true b!"c: EHLO a"), .session 0 (.log true b!"c: EHLO a"),
    .copy 1 0, .copy 1 0,
    .session 0 (.options b!"250-a.org\r\n250 AUTH PLAIN"), .session 0 (.options b!"250-a.org\r\n250 AUTH PLAIN"),
    .session 0 (.response b!"250 ok"), .session 0 (.response b!"250 ok"), .session 0 (.response b!"250 bye"),
    .create 0 (.logOf 1), .setName 1 (.text b!"b.org"), .copy 2 0, .move 3 2, .destroy 0 ]

/-- Which attempts succeed there. -/
def few : Nat → Bool := fun n => !([1, 4, 7, 11, 18, 24, 26, 30].contains n)

/-- The hypothesis of `C87_clients_out_of_memory_partial` holds there, and eight operations fail. -/
example : (tryRun few noClients (0, Heap.empty) hardSessions).1 =
      [false, true, false, true, false, true, false, true, false, true, false, true, false, true, false, true, true, true] ∧
    Sparing noClientValues hardSessions (tryRun few noClients (0, Heap.empty) hardSessions).1 :=
  ⟨by decide +kernel, of_sparing (by decide +kernel)⟩

/-- What the clients are at the end: the second one is spoilt, the fourth has the text of its log as its name. -/
example : outcomes noClientValues hardSessions (tryRun few noClients (0, Heap.empty) hardSessions).1 1 = none ∧
    outcomes noClientValues hardSessions (tryRun few noClients (0, Heap.empty) hardSessions).1 3 =
      some { name := some b!"c: EHLO a", log := none, response := none, auth := false, credential := none } := by decide +kernel

end Verif.Props
