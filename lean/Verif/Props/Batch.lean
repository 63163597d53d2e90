import Verif.Proofs.Kept
import Verif.Spec.Script
import Verif.Props.Values
/-!
# C46: one connection per batch, or one per message
-/
namespace Verif.Props
open Verif Verif.Model Verif.Spec

variable {env : Env}

/-- An event by which the client opens or closes a connection or takes its leave. -/
def OpensOrCloses : Ev → Prop
  | .socket _ => True
  | .close _ => True
  | .bioFree _ => True
  | .send .quit _ _ _ => True
  | _ => False

/-- Closing the connection: at most a TLS object is freed, then the socket is closed (descriptor 0 is never closed). -/
def Closing (fd : Nat) (evs : Hist) : Prop :=
  ∃ free, (free = [] ∨ ∃ id, free = [.bioFree id]) ∧ evs = free ++ (if fd = 0 then [] else [.close fd])

/-- Leaving: QUIT, sent at the first attempt or after some that failed, then the connection is closed. -/
def Leaving (fd : Nat) (evs : Hist) : Prop :=
  ∃ (ch : Chan) (fails : List Int) (n : Nat) (closing : Hist), Closing fd closing ∧
    evs = fails.map (fun e => .send .quit ch b!"QUIT\r\n" (.fail e)) ++ .send .quit ch b!"QUIT\r\n" (.sent n) :: closing

/-- A connection of its own: opened, used, left at the first attempt. -/
def OwnConnection (evs : Hist) : Prop :=
  ∃ (fd : Nat) (ch : Chan) (n : Nat) (mid closing : Hist), (∀ e ∈ mid, ¬ OpensOrCloses e) ∧ Closing fd closing ∧
    evs = .socket (.val fd) :: mid ++ .send .quit ch b!"QUIT\r\n" (.sent n) :: closing

theorem keepEv_not {e : Ev} (h : Proofs.KeepEv e) : ¬ OpensOrCloses e := by
  cases e with
  | send k c d r => cases k <;> simp_all [Proofs.KeepEv, OpensOrCloses]
  | _ => simp_all [Proofs.KeepEv, OpensOrCloses]

theorem closingEvs_closing {c : Client} {fd : Nat} (h : c.sock = fd) : Closing fd (Proofs.closingEvs c) := by
  unfold Proofs.closingEvs
  refine ⟨if c.kind = .smtp then [] else match c.bio with
      | some b => [.bioFree b.id]
      | none => [], ?_, ?_⟩
  · split
    · exact .inl rfl
    · split
      · exact .inr ⟨_, rfl⟩
      · exact .inl rfl
  · congr 1
    rw [h]
    by_cases h0 : fd = 0
    · subst h0; rfl
    · rw [if_pos (by omega), if_neg h0]

/-- A state in the middle of a batch on a connection. -/
structure InSession (fd : Nat) (s : St) : Prop where
  batch : s.client.batch = true
  isConnected : s.client.isConnected = true
  sock : s.client.sock = fd

/-- One more message in a batch. -/
theorem batch_next (m : Message) {fd : Nat} {s s' : St} (hs : InSession fd s) (hr : sendMail m env s = (.ok 0, s')) :
    Proofs.Wrote s s' ∨ (InSession fd s' ∧ ∃ evs, s'.hist = s.hist ++ evs ∧ ∀ e ∈ evs, ¬ OpensOrCloses e) := by
  have key : Proofs.post env (sendMail m) (fun code s' => code = 0 → Proofs.MailEnd s s') s := by
    unfold sendMail Proofs.post
    rw [Proofs.wp_bind, Proofs.wp_gets, hs.isConnected, Proofs.wp_ite]
    refine ⟨fun _ => ?_, fun h => absurd rfl h⟩
    have := Proofs.sendMailConnected_end (env := env) m s
    have he : ({ s with client := { s.client with isConnected := true } } : St) = s := by
      have := hs.isConnected
      cases s with
      | mk c h => cases c; simp_all
    rw [he] at this
    exact this
  unfold Proofs.post Proofs.wp at key
  rw [hr] at key
  rcases key rfl with h | h
  · exact .inl h
  · rw [if_pos hs.batch] at h
    obtain ⟨h1, evs, h2, h3⟩ := h
    unfold Proofs.SameConn at h1
    exact .inr ⟨⟨by rw [h1]; exact hs.batch, by rw [h1]; exact hs.isConnected, by rw [h1]; exact hs.sock⟩, evs, h2, fun e he => keepEv_not (h3 e he)⟩

/-- The run of a successful `sendMail` that has to connect. -/
theorem connect_first (m : Message) {s s' : St} (hc : s.client.isConnected = false) (hr : sendMail m env s = (.ok 0, s')) :
    ∃ fd s1, Proofs.OpenedOn s fd s1 ∧ Proofs.MailEnd { s1 with client := { s1.client with isConnected := true } } s' := by
  have key : Proofs.post env (sendMail m) (fun code s' => code = 0 →
      ∃ fd s1, Proofs.OpenedOn s fd s1 ∧ Proofs.MailEnd { s1 with client := { s1.client with isConnected := true } } s') s := by
    unfold sendMail Proofs.post
    rw [Proofs.wp_bind, Proofs.wp_gets, hc, Proofs.wp_ite]
    refine ⟨nofun, fun _ => ?_⟩
    rw [Proofs.wp_bind]
    refine Proofs.post_mono (Proofs.establish_opened s) fun code s1 h1 => ?_
    refine (Proofs.wp_ite ..).mpr ⟨fun h hc => absurd hc h, fun hc => ?_⟩
    rcases h1 with ⟨fd, h1⟩ | h1
    · exact Proofs.post_mono (Proofs.sendMailConnected_end m s1) fun code s2 h2 h0 => ⟨fd, s1, h1, h2 h0⟩
    · omega
  unfold Proofs.post Proofs.wp at key
  rw [hr] at key
  exact key rfl

/-- The first message of a batch. -/
theorem batch_first (m : Message) {s s' : St} (hb : s.client.batch = true) (hc : s.client.isConnected = false) (hr : sendMail m env s = (.ok 0, s')) :
    Proofs.Wrote s s' ∨ ∃ fd, InSession fd s' ∧ ∃ evs, s'.hist = s.hist ++ .socket (.val fd) :: evs ∧ ∀ e ∈ evs, ¬ OpensOrCloses e := by
  obtain ⟨fd, s1, ⟨h1, h2, h3, evs, h4, h5⟩, h | h⟩ := connect_first m hc hr
  · exact .inl (h.after ⟨_, h4⟩)
  · rw [if_pos (by exact h2.trans hb)] at h
    obtain ⟨k1, evs', k2, k3⟩ := h
    unfold Proofs.SameConn at k1
    refine .inr ⟨fd, ⟨by rw [k1]; exact h2.trans hb, by rw [k1], by rw [k1]; exact h1⟩, evs ++ evs', ?_, fun e he => ?_⟩
    · rw [k2]; show s1.hist ++ evs' = _; rw [h4]; simp
    · rcases List.mem_append.mp he with he | he
      · exact keepEv_not (h5 e he)
      · exact keepEv_not (k3 e he)

theorem doCall_sendMail {m : Message} {s s' : St} {r : CallRes} (h : doCall (.sendMail m) env s = (.ok r, s')) :
    ∃ code, r = .returned code ∧ sendMail m env { s with hist := s.hist ++ [.call (.sendMail m)] } = (.ok code, s') := by
  unfold doCall at h
  rw [Proofs.bind_run] at h
  change ((sendMail m >>= fun c => pure (CallRes.returned c)) env _) = _ at h
  rw [Proofs.bind_run] at h
  revert h
  cases sendMail m env { s with hist := s.hist ++ [.call (.sendMail m)] } with
  | mk x s1 =>
    cases x with
    | ok c => intro h; cases h; exact ⟨c, rfl, rfl⟩
    | stop e => intro h; cases h

theorem runCalls_cons {c : Call} {cs : List Call} {s s' : St} {rs : List CallRes} (h : runCalls (c :: cs) env s = (.ok rs, s')) :
    ∃ r rs' s1, rs = r :: rs' ∧ doCall c env s = (.ok r, s1) ∧ runCalls cs env s1 = (.ok rs', s') := by
  unfold runCalls at h
  rw [Proofs.bind_run] at h
  revert h
  cases doCall c env s with
  | mk x s1 =>
    cases x with
    | stop e => intro h; cases h
    | ok r =>
      intro h
      change ((runCalls cs >>= fun rs => pure (r :: rs)) env s1) = _ at h
      rw [Proofs.bind_run] at h
      revert h
      cases hx : runCalls cs env s1 with
      | mk x s2 =>
        cases x with
        | stop e => intro h; cases h
        | ok rs' => intro h; cases h; exact ⟨r, rs', s1, rfl, rfl, hx⟩

/-- All of them succeeded. -/
def AllSucceeded (rs : List CallRes) : Prop := ∀ r ∈ rs, r = .returned 0

theorem batch_rest (ms : List Message) {fd : Nat} {s s' : St} {rs : List CallRes} (hs : InSession fd s)
    (hr : runCalls (ms.map .sendMail) env s = (.ok rs, s')) (h0 : AllSucceeded rs) :
    Proofs.Wrote s s' ∨ (InSession fd s' ∧ ∃ evs, s'.hist = s.hist ++ evs ∧ ∀ e ∈ evs, ¬ OpensOrCloses e) := by
  induction ms generalizing s rs with
  | nil => cases hr; exact .inr ⟨hs, [], by simp, by simp⟩
  | cons m ms ih =>
    have hext := (Proofs.runCalls_steps (env := env) (R := Proofs.Ext) (ms.map .sendMail)).state
    obtain ⟨r, rs', s1, rfl, h1, h2⟩ := runCalls_cons hr
    obtain ⟨code, rfl, h1'⟩ := doCall_sendMail h1
    have hcode := h0 _ (List.mem_cons_self ..)
    cases hcode
    have hx := hext s1
    rw [h2] at hx
    rcases batch_next m (s := { s with hist := s.hist ++ [.call (.sendMail m)] }) ⟨hs.1, hs.2, hs.3⟩ h1' with h | ⟨hs1, evs, h3, h4⟩
    · exact .inl ((h.after ⟨_, rfl⟩).before hx)
    · rcases ih hs1 h2 (fun r hr => h0 r (List.mem_cons_of_mem _ hr)) with h | ⟨hs2, evs', h5, h6⟩
      · exact .inl (h.after ⟨.call (.sendMail m) :: evs, by rw [h3]; simp⟩)
      · refine .inr ⟨hs2, .call (.sendMail m) :: (evs ++ evs'), by rw [h5, h3]; simp, fun e he => ?_⟩
        rcases List.mem_cons.mp he with rfl | he
        · exact fun h => h
        · rcases List.mem_append.mp he with he | he
          · exact h4 e he
          · exact h6 e he

/-- **C46, batch mode, partial.** Any number of messages is sent in batch mode by a client that is not connected, every `sendMail` returns 0, and
the object is destroyed: there is exactly one connection, opened at the beginning of the first `sendMail`; until the destructor nothing is opened or
closed and no QUIT is sent; the destructor then sends QUIT and closes the connection. What is missing: successful writes to descriptor 0
(`C46_second_connection`). -/
theorem C46_batch_partial (env : Env) (m : Message) (ms : List Message) (s s' : St) (rs : List CallRes)
    (hb : s.client.batch = true) (hc : s.client.isConnected = false)
    (hr : life ((m :: ms).map .sendMail) env s = (.ok rs, s')) (h0 : AllSucceeded rs) :
    ∃ evs, s'.hist = s.hist ++ evs ∧ (WroteToZero evs ∨
      ∃ (fd : Nat) (mid leaving : Hist), evs = .call (.sendMail m) :: .socket (.val fd) :: mid ++ .destroy :: leaving ∧
        (∀ e ∈ mid, ¬ OpensOrCloses e) ∧ Leaving fd leaving ∧ s'.client.sock = 0 ∧ s'.client.isConnected = false) := by
  unfold life at hr
  rw [Proofs.bind_run] at hr
  cases hx : runCalls ((m :: ms).map .sendMail) env s with
  | mk x s2 =>
    rw [hx] at hr
    cases x with
    | stop e => cases hr
    | ok rs' =>
      change ((destroy >>= fun _ => pure rs') env s2) = _ at hr
      rw [Proofs.bind_run] at hr
      have hext := (Proofs.destroy_steps (env := env) (R := Proofs.Ext)).state s2
      revert hr
      cases hd : destroy env s2 with
      | mk y s3 =>
        cases y with
        | stop e => intro hr; cases hr
        | ok u =>
          intro hr
          cases hr
          rw [hd] at hext
          obtain ⟨r, rs1, s1, rfl, h1, h2⟩ := runCalls_cons hx
          obtain ⟨code, rfl, h1'⟩ := doCall_sendMail h1
          have hcode := h0 _ (List.mem_cons_self ..)
          cases hcode
          have hext2 := (Proofs.runCalls_steps (env := env) (R := Proofs.Ext) (ms.map .sendMail)).state s1
          rw [h2] at hext2
          suffices h : Proofs.Wrote s s' ∨ _ by
            rcases h with ⟨evs, h3, h4⟩ | h
            · exact ⟨evs, h3, .inl h4⟩
            · exact h
          rcases batch_first m (s := { s with hist := s.hist ++ [.call (.sendMail m)] }) hb hc h1' with h | ⟨fd, hs1, evs, h3, h4⟩
          · exact .inl (((h.after ⟨_, rfl⟩).before hext2).before hext)
          · rcases batch_rest ms hs1 h2 (fun r hr => h0 r (List.mem_cons_of_mem _ hr)) with h | ⟨hs2, evs', h5, h6⟩
            · exact .inl ((h.after ⟨.call (.sendMail m) :: .socket (.val fd) :: evs, by rw [h3]; simp⟩).before hext)
            · have hclean := Proofs.cleanup_batch (env := env) { s2 with hist := s2.hist ++ [.destroy] } hs2.batch hs2.isConnected
              have hrun : cleanup env { s2 with hist := s2.hist ++ [.destroy] } = (.ok u, s') := hd
              unfold Proofs.post Proofs.wp at hclean
              rw [hrun] at hclean
              obtain ⟨⟨w, h7, fails, n, h8⟩, hdead⟩ := hclean
              refine .inr ⟨.call (.sendMail m) :: .socket (.val fd) :: (evs ++ evs') ++ .destroy :: w, ?_, .inr ⟨fd, evs ++ evs', w, rfl, fun e he => ?_, ?_,
                hdead.sock, hdead.isConnected⟩⟩
              · rw [h7]
                show s2.hist ++ [.destroy] ++ w = _
                rw [h5, h3]; simp
              · rcases List.mem_append.mp he with he | he
                · exact h4 e he
                · exact h6 e he
              · exact ⟨Proofs.chan s2.client, fails, n, Proofs.closingEvs s2.client, closingEvs_closing hs2.sock, by rw [h8]; simp; rfl⟩

/-- One message outside batch mode. -/
theorem own_connection (m : Message) {s s' : St} (hb : s.client.batch = false) (hc : s.client.isConnected = false) (hr : sendMail m env s = (.ok 0, s')) :
    ∃ evs, s'.hist = s.hist ++ evs ∧ (WroteToZero evs ∨ Answered evs b!"\r\n.\r\n" 0 ∨
      (OwnConnection evs ∧ s'.client.isConnected = false)) ∧ s'.client.batch = false := by
  have hbatch : s'.client.batch = false := by
    have := (Proofs.sendMail_steps (env := env) (R := fun s s' => SameConfig s.client s'.client) m).state s
    rw [hr] at this
    unfold SameConfig at this
    simp_all
  obtain ⟨fd, s1, ⟨h1, h2, h3, evs, h4, h5⟩, ⟨e, k1, k2⟩ | h⟩ := connect_first m hc hr
  · refine ⟨.socket (.val fd) :: evs ++ e, by rw [k1]; show s1.hist ++ e = _; rw [h4]; simp, .inl ?_, hbatch⟩
    have := Proofs.wroteToZero_mono (a := .socket (.val fd) :: evs) (c := []) k2
    simpa using this
  · rw [if_neg (by show ¬ s1.client.batch = true; rw [h2, hb]; decide)] at h
    rcases h with ⟨e, k1, k2⟩ | ⟨mid, n, k1, k2, k3⟩
    · refine ⟨.socket (.val fd) :: evs ++ e, by rw [k1]; show s1.hist ++ e = _; rw [h4]; simp, .inr (.inl ?_), hbatch⟩
      have := Proofs.answered_mono (a := .socket (.val fd) :: evs) (c := []) k2
      simpa [endOfData] using this
    · refine ⟨.socket (.val fd) :: (evs ++ mid) ++ .send .quit (Proofs.chan s1.client) b!"QUIT\r\n" (.sent n) :: Proofs.closingEvs s1.client, ?_,
        .inr (.inr ⟨⟨fd, _, n, evs ++ mid, _, fun e he => ?_, closingEvs_closing h1, rfl⟩, k3.isConnected⟩), hbatch⟩
      · rw [k1]; show s1.hist ++ mid ++ _ ++ _ = _; rw [h4]; simp; exact ⟨⟨rfl, rfl⟩, rfl⟩
      · rcases List.mem_append.mp he with he | he
        · exact keepEv_not (h5 e he)
        · exact keepEv_not (k2 e he)

/-- **C46, outside batch mode, partial.** Any number of messages is sent by a client that is not connected, and every `sendMail` returns 0: each of
them opens a connection, and at its end sends QUIT and closes the connection; nothing is opened or closed in between. What is missing: successful
writes to descriptor 0, an end mark answered by a code 0 (`C46_no_quit`), and clients that are still connected because an earlier `sendMail` was
refused (`C46_not_its_own`). -/
theorem C46_without_batch_partial (env : Env) (ms : List Message) (s s' : St) (rs : List CallRes)
    (hb : s.client.batch = false) (hc : s.client.isConnected = false)
    (hr : runCalls (ms.map .sendMail) env s = (.ok rs, s')) (h0 : AllSucceeded rs) :
    ∃ evs, s'.hist = s.hist ++ evs ∧ (WroteToZero evs ∨ Answered evs b!"\r\n.\r\n" 0 ∨
      ∃ parts : List (Message × Hist), parts.map (·.1) = ms ∧ (∀ p ∈ parts, OwnConnection p.2) ∧
        evs = (parts.map fun p => .call (.sendMail p.1) :: p.2).flatten) := by
  induction ms generalizing s rs with
  | nil => cases hr; exact ⟨[], by simp, .inr (.inr ⟨[], rfl, by simp, rfl⟩)⟩
  | cons m ms ih =>
    obtain ⟨r, rs', s1, rfl, h1, h2⟩ := runCalls_cons hr
    obtain ⟨code, rfl, h1'⟩ := doCall_sendMail h1
    have hcode := h0 _ (List.mem_cons_self ..)
    cases hcode
    obtain ⟨x, hx⟩ := (Proofs.runCalls_steps (env := env) (R := Proofs.Ext) (ms.map .sendMail)).state s1
    rw [h2] at hx
    obtain ⟨evs, h3, h4, hb1⟩ := own_connection m (s := { s with hist := s.hist ++ [.call (.sendMail m)] }) hb hc h1'
    change s1.hist = s.hist ++ [.call (.sendMail m)] ++ evs at h3
    have hh : s'.hist = s.hist ++ ([.call (.sendMail m)] ++ evs ++ x) := by
      show s'.hist = _
      rw [hx, h3]; simp
    rcases h4 with h4 | h4 | ⟨h4, hc1⟩
    · exact ⟨_, hh, .inl (Proofs.wroteToZero_mono h4)⟩
    · exact ⟨_, hh, .inr (.inl (Proofs.answered_mono h4))⟩
    · obtain ⟨evs', h5, h6⟩ := ih s1 rs' hb1 hc1 h2 (fun r hr => h0 r (List.mem_cons_of_mem _ hr))
      refine ⟨[.call (.sendMail m)] ++ evs ++ evs', by rw [h5, h3]; simp, ?_⟩
      rcases h6 with h6 | h6 | ⟨parts, h6, h7, h8⟩
      · have := Proofs.wroteToZero_mono (a := [.call (.sendMail m)] ++ evs) (c := []) h6
        rw [List.append_nil] at this
        exact .inl this
      · have := Proofs.answered_mono (a := [.call (.sendMail m)] ++ evs) (c := []) h6
        rw [List.append_nil] at this
        exact .inr (.inl this)
      · refine .inr (.inr ⟨(m, evs) :: parts, by simp [h6], fun p hp => ?_, by simp [h8]⟩)
        rcases List.mem_cons.mp hp with rfl | hp
        · exact h4
        · exact h7 p hp

/-! ### Counterexamples and examples -/

/-- The events that matter here, in short. -/
def summary (h : Hist) : List (String × Int) :=
  h.filterMap fun
    | .socket (.val v) => some ("socket", v)
    | .close fd => some ("close", fd)
    | .send .quit c _ _ => some ("QUIT", c.fd)
    | .call _ => some ("call", 0)
    | .destroy => some ("destroy", 0)
    | _ => none

/-- The replies to one message. -/
def accepting : List Bytes := [b!"250 ok\r\n", b!"250 ok\r\n", b!"354 go\r\n", b!"250 ok\r\n"]

/-- A fresh client in batch mode. -/
def batchClient (k : Kind) : St := { fresh k with client := { (fresh k).client with batch := true } }

/-- **C46, refuted**: in batch mode the To header of the first message cannot be sent; the client closes the connection, hands the rest to descriptor 0
and reports success; the next message, also successful, opens a second connection. -/
theorem C46_second_connection :
    (let r := runCalls [.sendMail mail, .sendMail mail] (scripted ([.data b!"220 hi\r\n"] ++ clear ([b!"250 ok\r\n"] ++ accepting) ++
        [.data b!"220 hi\r\n"] ++ clear ([b!"250 ok\r\n"] ++ accepting)) (write := fun n => if n = 5 then some (.fail 32) else none)) (batchClient .smtp)
     (r.1, summary r.2.hist)) =
      (.ok [.returned 0, .returned 0], [("call", 0), ("socket", 5), ("QUIT", 5), ("close", 5), ("call", 0), ("socket", 5)]) := by
  decide +kernel

/-- **C46, refuted**: the end mark is answered by `000`; the connection is closed without QUIT and the result is 0. -/
theorem C46_no_quit :
    (let r := sendMail mail (scripted ([.data b!"220 hi\r\n"] ++ clear [b!"250 ok\r\n", b!"250 ok\r\n", b!"250 ok\r\n", b!"354 go\r\n", b!"000 ok\r\n"]))
        (fresh .smtp)
     (r.1, summary r.2.hist)) = (.ok 0, [("socket", 5), ("close", 5)]) := by
  decide +kernel

/-- **C46, refuted**: outside batch mode, after a refused message the next one is sent, successfully, over the connection of the first. -/
theorem C46_not_its_own :
    (let r := runCalls [.sendMail mail, .sendMail mail] (scripted ([.data b!"220 hi\r\n"] ++ clear ([b!"250 ok\r\n", b!"250 ok\r\n", b!"550 no\r\n"] ++ accepting)))
        (fresh .smtp)
     (r.1, summary r.2.hist)) =
      (.ok [.returned 550, .returned 0], [("call", 0), ("socket", 5), ("call", 0), ("QUIT", 5), ("close", 5)]) := by
  decide +kernel

/-- Non-vacuity of `C46_batch_partial`: two messages in one session. -/
example :
    (let r := life [.sendMail mail, .sendMail mail] (scripted ([.data b!"220 hi\r\n"] ++ clear ([b!"250 ok\r\n"] ++ accepting ++ accepting))) (batchClient .smtp)
     (r.1, summary r.2.hist)) =
      (.ok [.returned 0, .returned 0], [("call", 0), ("socket", 5), ("call", 0), ("destroy", 0), ("QUIT", 5), ("close", 5)]) := by
  decide +kernel

/-- Non-vacuity of `C46_without_batch_partial`: two messages, two sessions. -/
example :
    (let r := runCalls [.sendMail mail, .sendMail mail] (scripted ([.data b!"220 hi\r\n"] ++ clear ([b!"250 ok\r\n"] ++ accepting) ++
        [.data b!"220 hi\r\n"] ++ clear ([b!"250 ok\r\n"] ++ accepting))) (fresh .smtp)
     (r.1, summary r.2.hist)) =
      (.ok [.returned 0, .returned 0],
       [("call", 0), ("socket", 5), ("QUIT", 5), ("close", 5), ("call", 0), ("socket", 5), ("QUIT", 5), ("close", 5)]) := by
  decide +kernel

end Verif.Props
