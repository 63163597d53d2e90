import Verif.Proofs.ClientMemory
import Verif.Props.Mails
import Verif.Props.Sockets
/-!
# C59, C60: the memory of client objects

Every program that makes, copies, assigns, moves, changes, uses and destroys clients, on the heap.
-/
namespace Verif.Props
open Verif Verif.Model Verif.Spec Verif.Proofs

/-- User name and password of a credential on the heap. -/
def credentialAt (h : Heap) (p : Ptr) : Option (Bytes × Bytes) :=
  match objectAt h p with
  | [some u, some w] => some (u, w)
  | _ => none

/-- Is there an object at this address? -/
def existsAt (h : Heap) : Ptr → Bool
  | none => false
  | some a => match h.mem a with
    | some (.obj _) => true
    | _ => false

/-- What the getters of a client show. -/
def clientFace (h : Heap) (c : ClientObj) : ClientValue :=
  { name := textAt h c.name, log := textAt h c.log, response := textAt h c.response, auth := existsAt h c.auth,
    credential := credentialAt h c.credential }

/-- No clients. -/
def noClients : Clients := fun _ => none

/-- No clients. -/
def noClientValues : ClientValues := fun _ => none

theorem crel_face {o : Clients} {s : ClientValues} {h : Heap} {leaked : List Cell} (hR : CRel leaked o s h) {x : Nat} {v : ClientValue} (hv : s x = some v) :
    ∃ c, o x = some c ∧ clientFace h c = v := by
  obtain ⟨cs, names, hat, _, hnames, hE⟩ := hR
  have hx := hat x
  rw [hv] at hx
  obtain ⟨c, hc, hcc⟩ := hx.object
  refine ⟨c, hc, ?_⟩
  obtain ⟨ca, cc, h1, h2, hp⟩ := hcc.rest
  have hin : ∀ e, e ∈ fieldCells [c.name] [v.name] ++ (fieldCells [c.log] [v.log] ++ (fieldCells [c.response] [v.response] ++ (ca ++ cc))) →
      e ∈ names.flatMap cs ++ leaked :=
    fun e he => List.mem_append_left _ (List.mem_flatMap.mpr ⟨x, hnames x (by rw [hc]; nofun), hp.mem_iff.mpr he⟩)
  have t1 := matches_texts hcc.name hE fun e he => hin e (by simp [he])
  have t2 := matches_texts hcc.log hE fun e he => hin e (by simp [he])
  have t3 := matches_texts hcc.response hE fun e he => hin e (by simp [he])
  simp only [List.map_cons, List.map_nil, List.cons.injEq, and_true] at t1 t2 t3
  have t4 : existsAt h c.auth = v.auth := by
    have hin4 : ∀ e ∈ ca, e ∈ names.flatMap cs ++ leaked := fun e he => hin e (by simp [he])
    generalize c.auth = p at h1
    cases hb : v.auth <;> rw [hb] at h1 <;> cases h1
    · rfl
    · rename_i e fs hm
      have := (hE.mem e (.obj fs)).mpr (hin4 _ (List.mem_cons_self ..))
      simp only [existsAt, this]
  have t5 : credentialAt h c.credential = v.credential := by
    have hin5 : ∀ e ∈ cc, e ∈ names.flatMap cs ++ leaked := fun e he => hin e (by simp [he])
    generalize c.credential = p at h2
    cases hb : v.credential <;> rw [hb] at h2 <;> cases h2
    · rfl
    · rename_i k e fs hm
      have h3 := (hE.mem e (.obj fs)).mpr (hin5 _ (List.mem_cons_self ..))
      have h4 := matches_texts hm hE fun e he => hin5 e (List.mem_cons_of_mem _ he)
      simp only [credentialAt, objectAt, h3, h4, List.map_cons, List.map_nil]
  simp only [clientFace, t1, t2, t3, t4, t5]

/-- **C59** (partial). A program on clients that follows the rules of plain values (`clientRun`) reads no dead memory, frees nothing twice and nothing
with the wrong `delete`, and afterwards every client shows exactly what the same program on values gives: copies are independent, a moved-from client
is empty. The rules exclude clients that do not exist and copying from a moved-from client, and, what the full claim would include, giving a client its own
server name or credential (`C59_own_name`, `C59_own_credential`). -/
theorem C59_client_values_partial (ops : List COp) (s : ClientValues) (hrun : clientRun noClientValues ops = some s) :
    ∃ o h, crun noClients ops Heap.empty = .ok (o, h) ∧ ∀ x v, s x = some v → ∃ c, o x = some c ∧ clientFace h c = v := by
  obtain ⟨o, h, more, e, hR, _⟩ := crun_refines CRel.empty ops hrun
  exact ⟨o, h, e, fun x v hv => crel_face hR hv⟩

/-- **C59** (partial). Whatever a program does with its client objects, and whatever the servers, the network and the operating system do in the
sessions of these clients: what the program does to memory until it ends or stops (`memoryProgram`) is free of memory errors, and every client has the
server name, log, last response, authentication options and credential on the heap that the session left it with. -/
theorem C59_sessions_partial (ops : List ObjOp) (env : Env) :
    ∃ o h, crun noClients (memoryProgram ops env .empty) Heap.empty = .ok (o, h) ∧
      ∀ i c, (objRun ops env .empty).2.get i = some c → ∃ p, o i = some p ∧ clientFace h p = memoryOfClient c := by
  obtain ⟨o, h, e, hf⟩ := C59_client_values_partial _ _ (objRun_memory (env := env) ops .empty)
  exact ⟨o, h, e, fun i c hi => hf i _ (valueOf_get hi)⟩

/-- **C59**, the link between the session and what it notes about memory: an entry of the communication log is noted with a new buffer exactly when the
size of the buffer changed, and with the text that is in it afterwards. -/
theorem C59_new_buffer_noted (env : Env) (item pfx : Bytes) (s : St) (l : Log) (hl : s.client.log = some l) (hs : l.size = l.cap) (hc : l.content.length < l.cap) :
    ∃ l' g, (addLog item pfx env s).1 = .ok () ∧ (addLog item pfx env s).2.client.log = some l' ∧
      (addLog item pfx env s).2.mem = s.mem ++ [.log g l'.content] ∧ (g = true ↔ l'.cap ≠ l.cap) := by
  obtain ⟨l', ha, -, -, -⟩ := log_add_ok ⟨hs, hc⟩ item pfx
  have hcap := log_add_cap ha
  refine ⟨l', l.grows item pfx, ?_⟩
  have run : addLog item pfx env s = (.ok (), { s with client := { s.client with log := some l' }, mem := s.mem ++ [.log (l.grows item pfx) l'.content] }) := by
    unfold addLog
    rw [bind_run]
    simp only [gets_run, hl, ha]
    rfl
  rw [run]
  refine ⟨rfl, rfl, rfl, ?_⟩
  rw [hcap]
  cases hg : l.grows item pfx with
  | false => simp
  | true =>
    simp only [if_true, true_iff]
    unfold Log.grows sizeSub at hg
    rw [if_pos (by omega)] at hg
    simp [initialLogLength] at hg ⊢
    omega

/-- Non-vacuity: an entry of 8 bytes fits into a fresh log, one of 5000 bytes does not. -/
example : (Log.fresh.grows (List.replicate 8 65) b!"c", Log.fresh.grows (List.replicate 5000 65) b!"c") = (false, true) := by decide +kernel

/-- **C59** is false for a client that is given its own server name: the text is read after it was deleted. -/
theorem C59_own_name : ∃ e, crun noClients [.create 0 (.text b!"mail.org"), .setName 0 (.nameOf 0)] Heap.empty = .error e ∧ e = .deadRead :=
  ⟨.deadRead, rfl, rfl⟩

/-- **C59** is false for a client that is given its own credential: it is copied after it was deleted. -/
theorem C59_own_credential :
    ∃ e, crun noClients [.create 0 (.text b!"mail.org"), .setCredential 0 (.texts b!"u" b!"p"), .setCredential 0 (.of 0)] Heap.empty = .error e ∧ e = .deadRead :=
  ⟨.deadRead, rfl, rfl⟩

/-- **C60**, exactly: when all clients are destroyed, as many blocks of memory are left as `lostBlocks` counts: a log, a last response and a credential
(three blocks) for each copy assignment to a client that had them, and one block for each reply to EHLO with an AUTH line after its first and before
its last line. -/
theorem C60_exact (ops : List COp) (s : ClientValues) (hrun : clientRun noClientValues ops = some s) (hend : ∀ x, s x = none) :
    ∃ o h, ∃ left : List Nat, crun noClients ops Heap.empty = .ok (o, h) ∧ left.Nodup ∧ left.length = lostBlocks noClientValues ops ∧ ∀ a, h.mem a ≠ none ↔ a ∈ left := by
  obtain ⟨o, h, more, e, hR, hm⟩ := crun_refines CRel.empty ops hrun
  obtain ⟨cs, names, hat, _, _, hE⟩ := hR
  have hz : names.flatMap cs = [] := by
    rw [List.flatMap_eq_nil_iff]
    intro x _
    have := hat x
    rw [hend x] at this
    exact this.absent.2
  rw [hz, List.nil_append] at hE
  refine ⟨o, h, _, e, hE.nodup, by rw [List.append_nil, List.length_map]; exact hm, fun a => ?_⟩
  rw [List.mem_map]
  constructor
  · intro ha
    cases hb : h.mem a with
    | none => exact absurd hb ha
    | some b => exact ⟨(a, b), (hE.mem a b).mp hb, rfl⟩
  · rintro ⟨⟨x, b⟩, hx, rfl⟩ hn
    rw [(hE.mem x b).mpr hx] at hn
    cases hn

/-- **C60** (partial). When all clients are destroyed, nothing is left of their memory, if no client that has a log, a last response or a credential is
assigned a copy of another (`C60_assignment_leaks`) and no reply to EHLO has an AUTH line in its middle (`C60_ehlo_leaks`). -/
theorem C60_nothing_left_partial (ops : List COp) (s : ClientValues) (hrun : clientRun noClientValues ops = some s)
    (hassign : ∀ x y, .assign x y ∈ ops → x = y) (hauth : ∀ x t, .session x (.options t) ∈ ops → authInside t = false)
    (hend : ∀ x, s x = none) : ∃ o h, crun noClients ops Heap.empty = .ok (o, h) ∧ ∀ a, h.mem a = none := by
  obtain ⟨o, h, left, e, _, hl, hm⟩ := C60_exact ops s hrun hend
  have hz : ∀ (ops : List COp) (s : ClientValues), (∀ x y, .assign x y ∈ ops → x = y) →
      (∀ x t, .session x (.options t) ∈ ops → authInside t = false) → lostBlocks s ops = 0 := by
    intro ops
    induction ops with
    | nil => intros; rfl
    | cons p ps ih =>
      intro s h1 h2
      have hp : lostBy s p = 0 := by
        unfold lostBy
        split
        · rw [if_pos (h1 _ _ (List.mem_cons_self ..))]
        · rw [h2 _ _ (List.mem_cons_self ..)]
          rfl
        · rfl
      unfold lostBlocks
      rw [hp]
      cases clientStep s p with
      | none => rfl
      | some s' => simp [ih s' (fun x y hm => h1 x y (List.mem_cons_of_mem _ hm)) (fun x t hm => h2 x t (List.mem_cons_of_mem _ hm))]
  rw [hz ops _ hassign hauth] at hl
  refine ⟨o, h, e, fun a => ?_⟩
  cases hb : h.mem a with
  | none => rfl
  | some b =>
    have := (hm a).mp (by rw [hb]; nofun)
    rw [List.eq_nil_of_length_eq_zero hl] at this
    simp at this

/-- **C60** (exact for whole sessions). Whatever happened in the sessions: when a program has destroyed all the clients it made, the number of blocks that
are left is the number that `lostBlocks` counts in what the sessions did. -/
theorem C60_sessions_exact (ops : List ObjOp) (env : Env) (hend : ∀ i, (objRun ops env .empty).2.get i = none) :
    ∃ o h, ∃ left : List Nat, crun noClients (memoryProgram ops env .empty) Heap.empty = .ok (o, h) ∧ left.Nodup ∧
      left.length = lostBlocks noClientValues (memoryProgram ops env .empty) ∧ ∀ a, h.mem a ≠ none ↔ a ∈ left :=
  C60_exact _ _ (objRun_memory (env := env) ops .empty) fun x => by unfold memoryOf; rw [hend x]; rfl

/-- Two clients with credentials; the second is assigned the first; both are destroyed. -/
def leakingStory : List COp :=
  [.create 0 (.text b!"mail.org"), .create 1 (.text b!"relay.org"), .setCredential 1 (.texts b!"u" b!"p"), .assign 1 0, .destroy 0, .destroy 1]

/-- What is left of the credential: the object, the user name and the password. -/
theorem C60_assignment_leaks :
    ∃ s o h, clientRun noClientValues leakingStory = some s ∧ (∀ x, s x = none) ∧ crun noClients leakingStory Heap.empty = .ok (o, h) ∧
      ∃ a b c, h.mem a = some (.obj [some b, some c]) ∧ h.mem b = some (.chars b!"u") ∧ h.mem c = some (.chars b!"p") := by
  refine ⟨_, _, _, rfl, fun x => ?_, rfl, 4, 2, 3, rfl, rfl, rfl⟩
  match x with
  | 0 | 1 => rfl
  | n + 2 => simp [bindClient, noClientValues]

/-- A session that learns the mechanisms from the middle of a reply, like that of many servers, and again after the client has turned to TLS. -/
def ehloStory : List COp :=
  [.create 0 (.text b!"mail.org"), .session 0 (.options b!"250-mail.org\r\n250-AUTH PLAIN LOGIN\r\n250 HELP\r\n"),
   .session 0 (.options b!"250-mail.org\r\n250 AUTH PLAIN LOGIN\r\n"), .destroy 0]

/-- **C60** is false for such a session: the options parsed from the rest of the reply are overwritten by the same options parsed from the line. Also
an AUTH line at the end is lost, because the reply ends with a line break. -/
theorem C60_ehlo_leaks :
    ∃ s o h, clientRun noClientValues ehloStory = some s ∧ (∀ x, s x = none) ∧ crun noClients ehloStory Heap.empty = .ok (o, h) ∧
      ∃ a b, a ≠ b ∧ h.mem a = some (.obj []) ∧ h.mem b = some (.obj []) := by
  refine ⟨_, _, _, rfl, fun x => ?_, rfl, 1, 3, by decide, rfl, rfl⟩
  match x with
  | 0 => rfl
  | n + 1 => simp [bindClient, noClientValues]

/-- A story that meets the hypotheses of `C59_client_values_partial`, and with one operation more those of `C60_exact`: everything there is, with a session in between. -/
def clientStory : List COp :=
  [.create 0 (.text b!"mail.org"), .setCredential 0 (.texts b!"u" b!"p"), .session 0 .freshLog, .session 0 (.log false b!"a"),
   .session 0 (.response b!"220 hi"), .session 0 (.options b!"250-hi\r\n250 AUTH PLAIN"), .session 0 (.log true b!"ab"),
   .session 0 (.options b!"250-hi\r\n250-AUTH PLAIN\r\n250 HELP"), .session 0 (.options b!"250 hi"),
   .copy 1 0, .create 2 (.nameOf 1), .assign 2 1, .setName 1 (.logOf 0), .setName 1 (.logOf 1), .setName 2 (.nameOf 1), .setCredential 2 (.of 1), .move 3 2,
   .moveAssign 0 3, .setName 3 (.text b!"x"), .destroy 3, .destroy 2, .destroy 1]

example : ∃ s, clientRun noClientValues clientStory = some s ∧
    s 0 = some { name := some b!"ab", log := some b!"ab", response := some b!"220 hi", auth := false, credential := some (b!"u", b!"p") } ∧
    s 1 = none ∧ s 2 = none ∧ s 3 = none := ⟨_, rfl, rfl, rfl, rfl, rfl⟩

/-- What this story loses: the options of the reply with the AUTH line inside; nothing by the assignment to a client that has nothing. -/
example : lostBlocks noClientValues (clientStory ++ [.destroy 0]) = 1 := by decide +kernel

example : lostBlocks noClientValues leakingStory = 3 := by decide +kernel

/-- For `C60_nothing_left_partial`. -/
example : (∃ s, clientRun noClientValues [.create 0 (.text b!"mail.org"), .session 0 (.options b!"250-hi\r\n250 AUTH PLAIN"), .copy 1 0, .move 2 1,
      .moveAssign 1 0, .destroy 0, .destroy 1, .destroy 2] = some s ∧ ∀ x, s x = none) ∧ authInside b!"250-hi\r\n250 AUTH PLAIN" = false :=
  ⟨⟨_, rfl, fun x => by
    match x with
    | 0 | 1 | 2 => rfl
    | n + 3 => simp [bindClient, noClientValues]⟩, by decide⟩

/-- The same objects on the heap. -/
example : (match crun noClients clientStory Heap.empty with
    | .ok (o, h) => (o 0).map (clientFace h)
    | .error _ => none) = some { name := some b!"ab", log := some b!"ab", response := some b!"220 hi", auth := false, credential := some (b!"u", b!"p") } := by
  decide +kernel

example : ∃ s, clientRun noClientValues (clientStory ++ [.destroy 0]) = some s ∧ ∀ x, s x = none :=
  ⟨_, rfl, fun x => by
    match x with
    | 0 | 1 | 2 | 3 => rfl
    | n + 4 => simp [bindClient, noClientValues]⟩

/-- A program with a session. -/
def sessionStory : List ObjOp := [.create .smtp (some b!"mail.org") 25, .call 0 (.setBatchMode true), .call 0 (.sendMail mail), .copy 0, .destroy 0]

/-- For `C59_sessions_partial`: the copy has the log and the last response of the session. -/
example : (let r := objRun sessionStory (numbered (scripted batchTalk)) .empty
    (r.1, r.2.get 0, ((r.2.get 1).map memoryOfClient).map fun v => (v.name, v.log.isSome, v.response.isSome))) =
    (.ok (), none, some (some b!"mail.org", true, true)) := by decide +kernel

/-- For `C60_sessions_exact`: nobody is left; a session with a reply that offers no authentication loses nothing. -/
example : (objRun (sessionStory ++ [.destroy 1]) (numbered (scripted batchTalk)) .empty).2.clients = [none, none] := by decide +kernel

/-- What a session notes: a server that offers LOGIN, and refuses the password. -/
example : (sendMail mail (scripted ([.data b!"220 hi\r\n"] ++ clear [b!"250-mail.org\r\n250-AUTH PLAIN\r\n250 OK\r\n", b!"535 no\r\n"]))
      { fresh .smtp with client := { (fresh .smtp).client with credential := some { username := b!"u", password := b!"p" } } }).2.mem.filterMap (fun op =>
      match op with
      | .options t => some (t, authInside t)
      | _ => none) = [(b!"250-mail.org\r\n250-AUTH PLAIN\r\n250 OK\r\n", true)] := by decide +kernel

end Verif.Props
