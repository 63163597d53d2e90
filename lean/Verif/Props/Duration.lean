import Verif.Proofs.Cost
import Verif.Props.Waiting
import Verif.Props.Sockets
/-!
# C70: how long a call can wait
-/
namespace Verif.Props
open Verif Verif.Model Verif.Spec Verif.Proofs

theorem commandSends_append (a b : Hist) : commandSends (a ++ b) = commandSends a + commandSends b := List.countP_append ..
theorem selects_append (a b : Hist) : selects (a ++ b) = selects a + selects b := List.countP_append ..
theorem sleeps_append' (a b : Hist) : sleeps (a ++ b) = sleeps a + sleeps b := List.countP_append ..

theorem patient_prefix {T : Nat} {a b : Hist} (h : Patient T (a ++ b)) : Patient T a := by
  refine ⟨fun mid post e hc => h.1 mid (post ++ b) (by rw [e, List.append_assoc]) hc, fun pre c d r mid post e hc => h.2 pre c d r mid (post ++ b) ?_ hc⟩
  rw [e]; simp

theorem parts_quiet (mid : Hist) (h : commandSends mid = 0) (t : Bool × Nat) :
    mid.foldl partsStep t = (t.1, if t.1 = true then t.2 + dataReads mid else t.2) := by
  induction mid generalizing t with
  | nil => cases t with | mk b n => cases b <;> rfl
  | cons e mid ih =>
    have h1 : commandSends mid = 0 := by
      rw [show e :: mid = [e] ++ mid from rfl, commandSends_append] at h; omega
    have h2 : commandSends [e] = 0 := by
      rw [show e :: mid = [e] ++ mid from rfl, commandSends_append] at h; omega
    have h3 : dataReads (e :: mid) = dataReads [e] + dataReads mid := by
      rw [show e :: mid = [e] ++ mid from rfl]; exact List.countP_append ..
    rw [List.foldl_cons, ih h1, h3]
    cases t with
    | mk b n =>
      cases e with
      | send k c d r =>
        cases k with
        | cmd => exact absurd h2 (by simp [commandSends])
        | _ => cases b <;> simp [partsStep, dataReads]
      | recv c r => cases r <;> cases b <;> simp [partsStep, dataReads] <;> omega
      | _ => cases b <;> simp [partsStep, dataReads]

theorem lastCommand_split (h : Hist) (hn : commandSends h ≠ 0) : ∃ pre c d r mid, h = pre ++ .send .cmd c d r :: mid ∧ commandSends mid = 0 := by
  induction h with
  | nil => exact absurd rfl hn
  | cons e h ih =>
    by_cases h0 : commandSends h = 0
    · have h2 : commandSends [e] ≠ 0 := by
        rw [show e :: h = [e] ++ h from rfl, commandSends_append] at hn; omega
      cases e with
      | send k c d r =>
        cases k with
        | cmd => exact ⟨[], c, d, r, h, rfl, h0⟩
        | _ => exact absurd rfl h2
      | _ => exact absurd rfl h2
    · obtain ⟨pre, c, d, r, mid, e1, e2⟩ := ih h0
      exact ⟨e :: pre, c, d, r, mid, by rw [e1]; rfl, e2⟩

theorem patient_total {T : Nat} (n : Nat) (h : Hist) (hn : commandSends h = n) (hp : Patient T h) : sleeps h ≤ T * (1 + n + ehloParts h) := by
  induction n generalizing h with
  | zero =>
    have := hp.1 h [] (by simp) hn
    unfold allowed at this
    rw [if_neg (by simp)] at this
    exact Nat.le_trans this (Nat.le_mul_of_pos_right T (by omega))
  | succ n ih =>
    obtain ⟨pre, c, d, r, mid, rfl, hm⟩ := lastCommand_split h (by omega)
    have hs : commandSends (Ev.send .cmd c d r :: mid) = 1 := by
      rw [show Ev.send .cmd c d r :: mid = [Ev.send .cmd c d r] ++ mid from rfl, commandSends_append, hm]; rfl
    rw [commandSends_append, hs] at hn
    have h1 := ih pre (by omega) (patient_prefix hp)
    have h2 := hp.2 pre c d r mid [] (by simp) hm
    have h3 : sleeps (pre ++ Ev.send .cmd c d r :: mid) = sleeps pre + sleeps mid := by
      rw [sleeps_append', show Ev.send .cmd c d r :: mid = [Ev.send .cmd c d r] ++ mid from rfl, sleeps_append']
      have : sleeps [Ev.send .cmd c d r] = 0 := rfl
      omega
    have h4 : ehloParts (pre ++ Ev.send .cmd c d r :: mid) = ehloParts pre + (if d = b!"ehlo localhost\r\n" then dataReads mid else 0) := by
      unfold ehloParts
      rw [List.foldl_append, List.foldl_cons, parts_quiet mid hm]
      by_cases hd : d = b!"ehlo localhost\r\n" <;> simp [partsStep, hd]
    rw [h3, h4]
    unfold allowed at h2
    have e : ∀ x, T * (1 + (n + 1) + (ehloParts pre + x)) = T * (1 + n + ehloParts pre) + T * (1 + x) := by
      intro x
      rw [← Nat.mul_add]
      congr 1
      omega
    rw [e]
    refine Nat.add_le_add h1 ?_
    by_cases hd : d = b!"ehlo localhost\r\n"
    · rw [if_pos (by rw [hd])] at h2
      rw [if_pos hd]; exact h2
    · rw [if_neg (by simp [hd])] at h2
      rw [if_neg hd]; simpa using h2

/-- **C70.** Every call of sendMail, whatever the server and the network do and however it ends: it sends at most 11 commands and one for every recipient,
it waits in `select` (for at most the timeout) at most once, and the seconds it sleeps are at most the command timeout (one second if that is 0) times 12,
the number of recipients, and the number of parts in which the replies to EHLO came, taken together. -/
theorem C70_waiting_is_bounded (env : Env) (m : Message) (s : St) :
    ∃ evs, (sendMail m env s).2.hist = s.hist ++ evs ∧ commandSends evs ≤ 11 + (recipients m).length ∧ selects evs ≤ 1 ∧
      sleeps evs ≤ max 1 s.client.timeout * (12 + (recipients m).length + ehloParts evs) := by
  obtain ⟨evs, h1, h2⟩ := C43_seconds_between_commands_partial env m s
  have h3 := (cost_sendMail (env := env) m).run s
  rw [h1, commandSends_append, selects_append] at h3
  refine ⟨evs, h1, by omega, by omega, ?_⟩
  exact Nat.le_trans (patient_total _ evs rfl h2) (Nat.mul_le_mul_left _ (by omega))

/-- No EHLO is sent, so nothing is read as its reply. -/
def NoEhlo (s s' : St) : Prop := ∃ evs, s'.hist = s.hist ++ evs ∧ evs.foldl partsStep (false, 0) = (false, 0)

theorem noEhlo_event {s : St} {e : Ev} (h : partsStep (false, 0) e = (false, 0)) : NoEhlo s (St.snoc s e) := ⟨[e], rfl, h⟩
theorem noEhlo_same {s s' : St} (h : s'.hist = s.hist) : NoEhlo s s' := ⟨[], by rw [h, List.append_nil], rfl⟩

instance noEhlo_cleaning : Cleaning NoEhlo where
  refl := fun _ => noEhlo_same rfl
  trans := by
    rintro a b c ⟨e1, h1, h2⟩ ⟨e2, h3, h4⟩
    exact ⟨e1 ++ e2, by rw [h3, h1, List.append_assoc], by rw [List.foldl_append, h2, h4]⟩
  log := fun _ _ _ _ _ _ _ => noEhlo_same rfl
  errno := fun _ _ => noEhlo_same rfl
  resp := fun _ _ => noEhlo_same rfl
  auth := fun _ _ => noEhlo_same rfl
  fcntlGet := fun _ _ _ => noEhlo_event rfl
  fcntlSet := fun _ _ _ _ => noEhlo_event rfl
  select := fun _ _ _ => noEhlo_event rfl
  sockopt := fun _ _ _ => noEhlo_event rfl
  resolve := fun _ _ _ => noEhlo_event rfl
  connect := fun _ _ _ _ => noEhlo_event rfl
  sleep := fun _ => noEhlo_event rfl
  recv := fun _ _ r => noEhlo_event (by cases r <;> rfl)
  disconnected := fun _ => noEhlo_same rfl
  ctx := fun _ _ => noEhlo_same rfl
  noBio := fun _ => noEhlo_same rfl
  noSock := fun _ => noEhlo_same rfl
  close := fun _ _ => noEhlo_event rfl
  bioFree := fun _ _ => noEhlo_event rfl
  quit := fun _ _ _ => noEhlo_event rfl

instance : Filing NoEhlo where
  readFile := fun _ _ _ => noEhlo_event rfl

theorem noEhlo_ask {env : Env} {d r : Bytes} {x : UInt8} (h : cstr d = x :: r) (hx : x ≠ 101) (e t : Int) : Steps env NoEhlo (sendPtrFb d e t) :=
  sendPtrFb_steps (fun _ _ _ => noEhlo_event (by rw [h]; simp [partsStep, hx])) e t

theorem noEhlo_content {env : Env} (d : Bytes) (e : Int) : Steps env NoEhlo (sendPtr .content d e) := sendPtr_steps (fun _ _ _ => noEhlo_event rfl) e

theorem cstr_first {x : UInt8} (hx : x ≠ 0) (r : Bytes) : cstr (x :: r) = x :: cstr r := by simp [cstr, hx]

theorem noEhlo_mail {env : Env} (m : Message) : Steps env NoEhlo (sendMailConnected m) := by
  have h1 : ∀ (l : List Bytes) (c : Int), (∀ f ∈ l, ∃ r, cstr f = 77 :: r) → Steps env NoEhlo (mailFromLoop c l) := by
    intro l
    induction l with
    | nil => intro c _; unfold mailFromLoop; steps []
    | cons f l ih =>
      intro c hl
      unfold mailFromLoop
      obtain ⟨r, hr⟩ := hl f (by simp)
      have := noEhlo_ask (env := env) hr (by decide)
      have ih := fun c => ih c fun f h => hl f (by simp [h])
      steps [addLog_steps, this, ih]
  have h2 : ∀ (l : List MessageAddress) (c : Int), Steps env NoEhlo (addMailRecipients c l) := by
    intro l
    induction l with
    | nil => intro c; unfold addMailRecipients; steps []
    | cons a l ih =>
      intro c
      unfold addMailRecipients
      have := noEhlo_ask (env := env) (d := rcptTo a) (cstr_first (x := 82) (by decide) _) (by decide)
      steps [addLog_steps, this, ih]
  have h3 : ∀ l : List (Arr MessageAddress), Steps env NoEhlo (recipientsLoop l) := by
    intro l
    induction l with
    | nil => unfold recipientsLoop; steps []
    | cons a l ih => unfold recipientsLoop; steps [h2, arrElems_steps, ih]
  have h4 : ∀ l, Steps env NoEhlo (sendPieces l) := by
    intro l
    induction l with
    | nil => unfold sendPieces; steps []
    | cons a l ih => unfold sendPieces; steps [noEhlo_content]
  have h5 := noEhlo_ask (env := env) (d := dataCmd) (x := 68) (r := b!"ATA\r\n") (by decide) (by decide)
  have h6 := noEhlo_ask (env := env) (d := endOfData) (x := 13) (r := b!"\n.\r\n") (by decide) (by decide)
  have h7 := h1 (mailFormats m.from) 0 (by
    intro f hf
    simp only [mailFormats, List.mem_cons, List.not_mem_nil, or_false] at hf
    rcases hf with rfl | rfl | rfl <;> exact ⟨_, cstr_first (x := 77) (by decide) _⟩)
  unfold sendMailConnected sendMailRest setMailRecipients setMailHeaders setMailBody sendBodyText addressHeader addMailHeader
  steps [addLog_steps, noEhlo_content, h3, h4, h5, h6, h7, fullBody_steps, sendQuit_steps, cleanup_steps, arrElems_steps, Steps.modify]
  exact noEhlo_same rfl

/-- **C70.** In a session that is already open (batch mode) it is at most 6 times the timeout, and the timeout for every recipient; `select` is not called. -/
theorem C70_open_session (env : Env) (m : Message) (s : St) (hc : s.client.isConnected = true) :
    ∃ evs, (sendMail m env s).2.hist = s.hist ++ evs ∧ commandSends evs ≤ 5 + (recipients m).length ∧ selects evs = 0 ∧
      sleeps evs ≤ max 1 s.client.timeout * (6 + (recipients m).length) := by
  obtain ⟨evs, h1, h2⟩ := C43_seconds_between_commands_partial env m s
  have h3 := (cost_connected (env := env) m).run s
  obtain ⟨evs', h4, h5⟩ := (noEhlo_mail (env := env) m).state s
  rw [← sendMail_open m s hc] at h3 h4
  have e : evs' = evs := List.append_cancel_left (h4.symm.trans h1)
  subst e
  rw [h1, commandSends_append, selects_append] at h3
  refine ⟨evs', h1, by omega, by omega, ?_⟩
  have h6 := patient_total _ evs' rfl h2
  rw [show ehloParts evs' = 0 from congrArg Prod.snd h5] at h6
  exact Nat.le_trans h6 (Nat.mul_le_mul_left _ (by omega))

/-- A server that lets the client wait for four seconds before each of its replies. -/
def slowTalk : List RecvRes :=
  [.err, .err, .err, .err, .data b!"220 hi\r\n"] ++
  ([b!"250-x\r\n", b!"250-y\r\n250 OK\r\n", b!"250 ok\r\n", b!"250 ok\r\n", b!"354 go\r\n", b!"250 ok\r\n"].map fun r =>
    [RecvRes.err, .err, .err, .err, .data r, .err]).flatten


/-- Non-vacuity: with the timeout of five seconds that call succeeds after 28 seconds. The reply to EHLO came in two parts. -/
example : (let r := sendMail mail (scripted slowTalk) (fresh .smtp)
    (r.1, sleeps r.2.hist, commandSends r.2.hist, selects r.2.hist, ehloParts r.2.hist, (recipients mail).length)) = (.ok 0, 28, 5, 0, 2, 1) := by decide +kernel

/-- The parts have to be counted: a server can make the client wait for its EHLO reply as often as it likes. Here the reply comes in 20 parts,
four seconds after each other; the call sleeps for 80 seconds after a single command. -/
theorem C70_ehlo_in_parts : (let r := sendMail mail (scripted
      ([.data b!"220 hi\r\n"] ++ (List.replicate 20 [RecvRes.err, .err, .err, .err, .data b!"250-x\r\n", .err]).flatten ++ [.data b!"500 no\r\n"])) (fresh .smtp)
    (r.1, sleeps r.2.hist, commandSends r.2.hist)) = (.ok 500, 80, 1) := by decide +kernel

end Verif.Props
