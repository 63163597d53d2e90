import Verif.Proofs.Dialogue
import Verif.Spec.Script
/-!
# C61: the dialogue of a call follows one script
-/
namespace Verif.Props
open Verif Verif.Model Verif.Spec

/-- **C61 (order).** In every run of `sendMail`, also in those that fail or stop, everything that was sent or tried stands in one script in the same
order, each thing at most once: the opening of the session, the sender in one to three forms, the recipients, DATA, the header, the body, the end mark.
The body is that of the message with the files as they were read in this run. -/
theorem C61_in_order (env : Env) (m : Message) (hm : NulFree m) (s : St) (hc : ∀ c, s.client.credential = some c → Modest c) :
    ∃ evs before rest files, (sendMail m env s).2.hist = s.hist ++ evs ∧ ScriptBeforeBody s.client m before ∧ ScriptOfBody m files rest ∧
      (uttered evs).Sublist (before ++ rest) ∧ ((uttered evs).Sublist before ∨ FilesRead m files evs) := by
  obtain ⟨evs, before, rest, files, h1, h2, h3, h4, h5, _⟩ := Proofs.sendMail_follows (env := env) hm s hc
  exact ⟨evs, before, rest, files, h1, h2, h3, h4, h5⟩

/-- **C61, partial (nothing skipped).** Moreover what was said is an initial part of the script: nothing is said before everything that comes earlier was
said. When `sendMail` returns 0 it is the whole script. Missing: runs in which a reply reads as number 0 (`C61_zero_skips`). -/
theorem C61_nothing_skipped_partial (env : Env) (m : Message) (hm : NulFree m) (s : St) (hc : ∀ c, s.client.credential = some c → Modest c) :
    ∃ evs before rest files, (sendMail m env s).2.hist = s.hist ++ evs ∧ ScriptBeforeBody s.client m before ∧ ScriptOfBody m files rest ∧
      (ReplyIn evs 0 ∨ (uttered evs <+: before ++ rest ∧ (uttered evs <+: before ∨ FilesRead m files evs) ∧
        ((sendMail m env s).1 = .ok 0 → uttered evs = before ++ rest))) := by
  obtain ⟨evs, before, rest, files, h1, h2, h3, h4, h5, h6⟩ := Proofs.sendMail_follows (env := env) hm s hc
  refine ⟨evs, before, rest, files, h1, h2, h3, Classical.or_iff_not_imp_left.mpr fun hz => ?_⟩
  obtain ⟨p, f⟩ := h6 hz
  refine ⟨p, h5.imp_left fun h => ?_, fun h0 => f (sendMail m env s).2 (Prod.ext h0 rfl)⟩
  exact List.prefix_of_prefix_length_le p (List.prefix_append ..) h.length_le

/-- The content among what was said. -/
def saidContent (l : List (SendKind × Bytes)) : Bytes := (l.filterMap fun u => if u.1 = .content then some u.2 else none).flatten

theorem saidContent_append (a b : List (SendKind × Bytes)) : saidContent (a ++ b) = saidContent a ++ saidContent b := by simp [saidContent]

theorem saidContent_cmds (l : List Bytes) : saidContent (l.map (.cmd, ·)) = [] := by
  unfold saidContent
  rw [List.flatten_eq_nil_iff]
  intro x hx
  simp only [List.mem_filterMap, List.mem_map] at hx
  obtain ⟨_, ⟨d, _, rfl⟩, h⟩ := hx
  cases h

theorem saidContent_contents (l : List Bytes) : saidContent (l.map (.content, ·)) = l.flatten := by
  unfold saidContent
  induction l with
  | nil => rfl
  | cons d l ih => simp_all

/-- **C61, refuted** for replies that read as 0: DATA is answered `000` and the body is sent without the header. -/
theorem C61_zero_skips : ¬ ∀ (env : Env) (m : Message), NulFree m → ∀ s : St, s.client.credential = none →
    ∃ evs before rest files, (sendMail m env s).2.hist = s.hist ++ evs ∧ ScriptBeforeBody s.client m before ∧ ScriptOfBody m files rest ∧
      uttered evs <+: before ++ rest := by
  intro h
  obtain ⟨evs, before, rest, files, h1, ⟨o, f, hd, _, _, _, h2, rfl⟩, ⟨b, h3, rfl⟩, p⟩ :=
    h (scripted ([.data b!"220 hi\r\n"] ++ clear [b!"250 ok\r\n", b!"250 ok\r\n", b!"250 ok\r\n", b!"000 go\r\n", b!"250 ok\r\n"])) mail
      ⟨by decide, by decide, by decide, by decide, by decide⟩ (fresh .smtp) rfl
  have he : (sendMail mail (scripted ([.data b!"220 hi\r\n"] ++ clear [b!"250 ok\r\n", b!"250 ok\r\n", b!"250 ok\r\n", b!"000 go\r\n", b!"250 ok\r\n"]))
      (fresh .smtp)).2.hist = evs := h1
  obtain ⟨t, ht⟩ := p
  have hs := congrArg (fun l => (saidContent l).take 4) ht
  have h4 : ((saidContent (uttered evs)).take 4, decide (4 ≤ (saidContent (uttered evs)).length)) = (b!"--se", true) := by
    rw [← he]
    decide +kernel
  simp only [Prod.mk.injEq, decide_eq_true_eq] at h4
  simp only [saidContent_append, saidContent_cmds, saidContent_contents, List.nil_append] at hs
  rw [List.take_append_of_le_length h4.2, h4.1, h2, List.take_append_of_le_length (by decide)] at hs
  exact absurd hs (by decide)

/-- Non-vacuity: a complete session of the opportunistic client with a login, and one that ends with a refused recipient. -/
def joePlain : Credential := { username := b!"joe", password := b!"pw" }

example : NulFree mail ∧ Modest joePlain := ⟨⟨by decide, by decide, by decide, by decide, by decide⟩, ⟨by decide, by decide, by decide⟩⟩

example :
    (let r := sendMail mail (scripted ([.data b!"220 hi\r\n"] ++ clear [b!"250-STARTTLS\r\n250 ok\r\n", b!"220 go\r\n"] ++
        [.data b!"250-AUTH PLAIN\r\n250 ok\r\n", .data b!"235 ok\r\n", .data b!"501 no\r\n", .data b!"250 ok\r\n", .data b!"250 ok\r\n", .data b!"354 go\r\n",
         .data b!"250 ok\r\n"]))
        { fresh .opportunistic with client := { (fresh .opportunistic).client with credential := some joePlain } }
     (r.1, uttered r.2.hist)) =
      (.ok 0, [(.cmd, b!"ehlo localhost\r\n"), (.cmd, b!"STARTTLS\r\n"), (.cmd, b!"ehlo localhost\r\n"), (.cmd, b!"AUTH PLAIN AGpvZQBwdw==\r\n"),
        (.cmd, b!"MAIL FROM: <me@here.org>\r\n"), (.cmd, b!"MAIL FROM: < me@here.org>\r\n"), (.cmd, b!"RCPT TO: <you@there.org>\r\n"), (.cmd, b!"DATA\r\n"),
        (.content, b!"From: me@here.org\r\n"), (.content, b!"To: You <you@there.org>\r\n"), (.content, b!"Subject: Hello\r\n"),
        (.content, b!"Content-Type: multipart/related; boundary=sep\r\n\r\n"),
        (.content, b!"--sep\r\nContent-Type: text/plain; charset=UTF-8\r\n\r\nBody\r\n"), (.cmd, b!"\r\n.\r\n")]) := by decide +kernel

example :
    (let r := sendMail bigMail (scripted ([.data b!"220 hi\r\n"] ++ clear [b!"250 ok\r\n", b!"250 ok\r\n", b!"250 ok\r\n", b!"550 no\r\n"])) (fresh .smtp)
     (r.1, uttered r.2.hist)) =
      (.ok 550, [(.cmd, b!"ehlo localhost\r\n"), (.cmd, b!"MAIL FROM: <me@here.org>\r\n"), (.cmd, b!"RCPT TO: <you@there.org>\r\n"),
        (.cmd, b!"RCPT TO: <two@there.org>\r\n")]) := by decide +kernel

end Verif.Props
