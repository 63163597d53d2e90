import Verif.Props.Dialogue
import Verif.Props.Delivery
/-!
# C31: every recipient is announced once, in order
-/
namespace Verif.Props
open Verif Verif.Model Verif.Spec Verif.Proofs

/-- The RCPT TO commands that were sent or tried, as they were handed to the operating system. -/
def announced (h : Hist) : List Bytes := (commands h).filter (b!"RCPT".isPrefixOf ·)

theorem commands_uttered (h : Hist) : commands h = (uttered h).filterMap fun u => if u.1 = .cmd then some u.2 else none := by
  unfold commands uttered
  rw [List.filterMap_filterMap]
  congr 1
  funext e
  cases e with
  | send k c d r => cases k <;> rfl
  | _ => rfl

/-- The commands among things to say. -/
def cmdTexts (l : List (SendKind × Bytes)) : List Bytes := l.filterMap fun u => if u.1 = .cmd then some u.2 else none

theorem cmdTexts_cmds (l : List Bytes) : cmdTexts (l.map (.cmd, ·)) = l := by
  unfold cmdTexts
  rw [List.filterMap_map]
  simp [Function.comp_def]

theorem cmdTexts_contents (l : List Bytes) : cmdTexts (l.map (.content, ·)) = [] := by
  unfold cmdTexts
  rw [List.filterMap_map, List.filterMap_eq_nil_iff]
  simp

theorem cmdTexts_append (a b : List (SendKind × Bytes)) : cmdTexts (a ++ b) = cmdTexts a ++ cmdTexts b := by simp [cmdTexts]

/-- The RCPT TO commands of the whole script of a mail. -/
theorem script_rcpt (m : Message) (f header body : List Bytes) (hf : f <+: senderForms m.from) :
    (cmdTexts (f.map (.cmd, ·) ++ ((recipients m).map fun a => b!"RCPT TO: <" ++ a.email ++ b!">\r\n").map (.cmd, ·) ++
      ((.cmd, b!"DATA\r\n") :: header.map (.content, ·)) ++ (body.map (.content, ·) ++ [(.cmd, b!"\r\n.\r\n")]))).filter
        (b!"RCPT".isPrefixOf ·) = (recipients m).map fun a => b!"RCPT TO: <" ++ a.email ++ b!">\r\n" := by
  have e : (SendKind.cmd, b!"DATA\r\n") :: header.map (SendKind.content, ·) = [b!"DATA\r\n"].map (SendKind.cmd, ·) ++ header.map (.content, ·) := rfl
  have e' : [(SendKind.cmd, b!"\r\n.\r\n")] = [b!"\r\n.\r\n"].map (SendKind.cmd, ·) := rfl
  rw [e, e']
  simp only [cmdTexts_append, cmdTexts_cmds, cmdTexts_contents, List.filter_append]
  have h1 : f.filter (b!"RCPT".isPrefixOf ·) = [] := by
    rw [List.filter_eq_nil_iff]
    intro g hg
    have := hf.subset hg
    simp only [senderForms, List.mem_cons, List.not_mem_nil, or_false] at this
    rcases this with rfl | rfl | rfl <;> simp [List.isPrefixOf]
  have h2 : ((recipients m).map fun a => b!"RCPT TO: <" ++ a.email ++ b!">\r\n").filter (b!"RCPT".isPrefixOf ·) =
      (recipients m).map fun a => b!"RCPT TO: <" ++ a.email ++ b!">\r\n" := by
    rw [List.filter_eq_self]
    intro g hg
    obtain ⟨x, hx, rfl⟩ := List.mem_map.mp hg
    simp [List.isPrefixOf]
  rw [h1, h2]
  simp [List.isPrefixOf]

theorem connected_announces {env : Env} {m : Message} (hm : NulFree m) (s : St) :
    ∃ evs, (sendMailConnected m env s).2.hist = s.hist ++ evs ∧
      (announced evs).Sublist ((recipients m).map fun a => b!"RCPT TO: <" ++ a.email ++ b!">\r\n") ∧
      (¬ ReplyIn evs 0 → announced evs <+: ((recipients m).map fun a => b!"RCPT TO: <" ++ a.email ++ b!">\r\n") ∧
        ((sendMailConnected m env s).1 = .ok 0 → announced evs = (recipients m).map fun a => b!"RCPT TO: <" ++ a.email ++ b!">\r\n")) := by
  have key : ∀ P s', Out (.then (headScripts m) (bodyScripts m)) P s s' → ∃ evs, s'.hist = s.hist ++ evs ∧
      (announced evs).Sublist ((recipients m).map fun a => b!"RCPT TO: <" ++ a.email ++ b!">\r\n") ∧
      (¬ ReplyIn evs 0 → announced evs <+: ((recipients m).map fun a => b!"RCPT TO: <" ++ a.email ++ b!">\r\n") ∧
        (P → announced evs = (recipients m).map fun a => b!"RCPT TO: <" ++ a.email ++ b!">\r\n")) := by
    rintro P s' ⟨_, _, hx, ⟨_, e5, _, l5, rfl, rfl,
      ⟨e2, e3, _, _, rfl, rfl, ⟨⟨_, _, _, _, rfl, rfl, ⟨f, hf, hne, rfl⟩, rfl⟩, b2⟩, rfl, b3⟩, files, ⟨⟨body, hb, rfl⟩, -⟩, hfiles⟩, hsub, hz⟩
    have n1 : ∀ d ∈ f, cstr d = d := fun d hd => senderForms_nul (hm.addresses _ (by simp)) d (hf.subset hd)
    have n2 : ∀ d ∈ (recipients m).map rcptTo, cstr d = d := by
      intro d hd
      obtain ⟨a, ha, rfl⟩ := List.mem_map.mp hd
      exact cstr_eq_self (by have := (hm.addresses a (by simp [ha])).1; simp [rcptTo, this])
    have n3 : ∀ d ∈ headerLines m, cstr d = d := mem_flatten_nul (headerLines_flatten m) (headerText_nul hm)
    have e1 : cstrCmds f = f.map (.cmd, ·) := map_cstr n1 _
    have e2 : rcpts (recipients m) = ((recipients m).map fun a => b!"RCPT TO: <" ++ a.email ++ b!">\r\n").map (.cmd, ·) := by
      rw [rcpts, cstrCmds, map_cstr n2]
      rfl
    have e3 : cstrContents (headerLines m) = (headerLines m).map (.content, ·) := map_cstr n3 _
    rw [e1, e2, e3] at hsub hz
    have hr := script_rcpt m f (headerLines m) body hf
    refine ⟨_, hx, ?_, fun h => ?_⟩
    · rw [← hr]
      unfold announced
      rw [commands_uttered]
      exact (hsub.filterMap _).filter _
    · obtain ⟨h1, h2⟩ := hz h
      rw [← hr]
      unfold announced
      rw [commands_uttered]
      refine ⟨(h1.filterMap _).filter _, fun hp => ?_⟩
      rw [h2 hp]
      rfl
  have h := sendMailConnected_recites (env := env) hm s
  unfold Recites wp at h
  cases hr : sendMailConnected m env s with
  | mk r s' =>
    rw [hr] at h
    cases r with
    | stop e =>
      obtain ⟨evs, h1, h2, h3⟩ := key _ _ h
      exact ⟨evs, h1, h2, fun hz => ⟨(h3 hz).1, fun e => (nomatch e)⟩⟩
    | ok c =>
      obtain ⟨evs, h1, h2, h3⟩ := key _ _ h
      exact ⟨evs, h1, h2, fun hz => ⟨(h3 hz).1, fun e => (h3 hz).2 (by cases e; rfl)⟩⟩

/-- **C31, partial.** In every run of `sendMail`, also in those that fail or stop: after the connection was established, the RCPT TO commands
that are sent or tried are in the order To, Cc, Bcc and list order inside each, and none is repeated. Unless a reply reads as number 0,
none is skipped, and when `sendMail` returns 0 all were announced. Missing: `C31_zero_skips_recipients`. -/
theorem C31_announced_partial (env : Env) (m : Message) (hm : NulFree m) (s : St) :
    ∃ opening evs, (sendMail m env s).2.hist = s.hist ++ opening ++ evs ∧
      (if s.client.isConnected then opening = [] else (establish env s).2.hist = s.hist ++ opening) ∧
      (announced evs).Sublist ((recipients m).map fun a => b!"RCPT TO: <" ++ a.email ++ b!">\r\n") ∧
      (¬ ReplyIn evs 0 → announced evs <+: ((recipients m).map fun a => b!"RCPT TO: <" ++ a.email ++ b!">\r\n") ∧
        ((sendMail m env s).1 = .ok 0 → announced evs = (recipients m).map fun a => b!"RCPT TO: <" ++ a.email ++ b!">\r\n")) := by
  unfold sendMail
  rw [bind_run, gets_run]
  dsimp only
  by_cases hc : s.client.isConnected = true
  · simp only [hc, if_true]
    obtain ⟨evs, h⟩ := connected_announces (env := env) hm s
    exact ⟨[], evs, by simpa using h.1, rfl, h.2⟩
  · simp only [hc, Bool.false_eq_true, if_false]
    rw [bind_run]
    obtain ⟨opening, ho, _⟩ := (establish_steps (env := env) (R := NewEvents (Allowed (OnlyContent fun _ => False)))).state s
    cases he : establish env s with
    | mk r s1 =>
      rw [he] at ho
      cases r with
      | stop e => exact ⟨opening, [], by simpa using ho, ho, List.nil_sublist _, fun _ => ⟨List.nil_prefix, fun e => (nomatch e)⟩⟩
      | ok c =>
        dsimp only
        by_cases h0 : c = 0
        · rw [if_neg (by simpa using h0)]
          obtain ⟨evs, h⟩ := connected_announces (env := env) hm s1
          refine ⟨opening, evs, ?_, ho, h.2⟩
          rw [h.1]
          exact congrArg (· ++ evs) ho
        · rw [if_pos (by simpa using h0)]
          exact ⟨opening, [], (by rw [List.append_nil]; exact ho), ho, List.nil_sublist _, fun _ => ⟨List.nil_prefix, fun e => by cases e; exact absurd rfl h0⟩⟩

/-- **C31, refuted** for a reply that reads as number 0: the second recipient is answered `000`. Cc and Bcc are never announced, and the
result is 0. -/
theorem C31_zero_skips_recipients :
    (let r := sendMail bigMail (scripted ([.data b!"220 hi\r\n"] ++ clear [b!"250 ok\r\n", b!"250 ok\r\n", b!"250 ok\r\n", b!"000 ok\r\n", b!"354 go\r\n", b!"250 ok\r\n"]))
        (fresh .smtp)
     (r.1, announced r.2.hist, (recipients bigMail).length)) =
      (.ok 0, [b!"RCPT TO: <you@there.org>\r\n", b!"RCPT TO: <two@there.org>\r\n"], 4) := by decide +kernel

/-- Non-vacuity: four recipients, all announced. -/
example :
    (let r := sendMail bigMail (scripted ([.data b!"220 hi\r\n"] ++ clear [b!"250 ok\r\n", b!"250 ok\r\n", b!"250 ok\r\n", b!"250 ok\r\n", b!"250 ok\r\n", b!"250 ok\r\n", b!"354 go\r\n", b!"250 ok\r\n"]))
        (fresh .smtp)
     (r.1, announced r.2.hist)) =
      (.ok 0, [b!"RCPT TO: <you@there.org>\r\n", b!"RCPT TO: <two@there.org>\r\n", b!"RCPT TO: <cc@there.org>\r\n", b!"RCPT TO: <bcc@there.org>\r\n"]) := by
  decide +kernel

end Verif.Props
