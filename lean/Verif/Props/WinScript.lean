import Verif.Props.WinContent
import Verif.Props.Limits
/-!
# The order and the length of what is said on Windows (C84)

What C61 and C93 say about a mail on POSIX, said about a mail on Windows.
-/
namespace Verif.Props
open Verif Verif.Model Verif.Spec Verif.Proofs

theorem uttered_spoken (h : Hist) : uttered (spoken h) = uttered h := by
  unfold uttered spoken
  rw [List.filterMap_filterMap]
  congr 1
  funext x
  cases x with
  | send k _ _ _ => cases k <;> rfl
  | _ => rfl

theorem openingScript_view {c c' : Client} (h : SameView c c') {l : List Bytes} (ho : OpeningScript c' l) : OpeningScript c l := by
  unfold OpeningScript at ho ⊢
  rw [h.connected, h.settings.credential, h.settings.kind]
  exact ho

theorem scriptBeforeBody_view {c c' : Client} (h : SameView c c') {m : Message} {l : List (SendKind × Bytes)} (hs : ScriptBeforeBody c' m l) : ScriptBeforeBody c m l := by
  obtain ⟨opening, senders, header, h1, h2⟩ := hs
  exact ⟨opening, senders, header, openingScript_view h h1, h2⟩

/-- **C61 on Windows.** Everything a call says on Windows stands in one script in the same order, each thing at most once; nothing of it is skipped, and it is the whole script when the
call returns 0, under the conditions of `C61_nothing_skipped_partial`. -/
theorem C84_in_order_partial (e : Env) (w : WinCalls) (kind : Kind) (name : Bytes) (port : Nat) (cs : List Call) (hf : ∀ c ∈ cs, CallFits c) (m : Message) (hm : MessageFits m)
    (hn : NulFree m) (rs : List CallRes) (t u : St) (code : Int) (h1 : Gen.runCalls (windows w) cs e (newClient kind name port) = (.ok rs, t))
    (h2 : Gen.sendMail (windows w) m e t = (.ok code, u)) (hc : ∀ c, t.client.credential = some c → Modest c) :
    ∃ evs before rest files, u.hist = t.hist ++ evs ∧ ScriptBeforeBody t.client m before ∧ ScriptOfBody m files rest ∧
      (uttered evs).Sublist (before ++ rest) ∧ ((uttered evs).Sublist before ∨ FilesRead m files evs) ∧
      (ReplyIn (spoken evs) 0 ∨ (uttered evs <+: before ++ rest ∧ (code = 0 → uttered evs = before ++ rest))) := by
  obtain ⟨e', rs', t', code', u', h3, h4, -, hcode, hv, -, hx⟩ := C84_each_mail_partial e w kind name port cs hf m hm rs t u code h1 h2
  obtain ⟨evs, before, rest, files, h5, h6, h7, h8, h9, h10⟩ := Proofs.sendMail_follows (env := e') hn t' (by
    intro c h; rw [← hv.settings.credential] at h; exact hc c h)
  rw [h4] at h5
  obtain ⟨evs0, h11, h12⟩ := hx evs h5
  have same : uttered evs0 = uttered evs := by rw [← uttered_spoken, h12, uttered_spoken]
  refine ⟨evs0, before, rest, files, h11, scriptBeforeBody_view hv h6, h7, by rw [same]; exact h8, ?_, ?_⟩
  · rw [same]
    rcases h9 with h | ⟨h, h'⟩
    · exact .inl h
    · refine .inr ⟨h, fun p hp => ?_⟩
      have := readFile_spoken (h' p hp)
      rw [← h12] at this
      exact readFile_of_spoken this
  · rw [same]
    by_cases hz : ReplyIn evs 0
    · exact .inl (by rw [h12]; exact replyIn_spoken hz)
    · obtain ⟨p, f⟩ := h10 hz
      refine .inr ⟨p, fun h0 => ?_⟩
      subst h0
      have hc : code' = 0 := by
        rcases hcode with h | ⟨h | h | h, -⟩ | ⟨h, -⟩
        · exact h.symm
        all_goals cases h
      subst hc
      exact f u' h4

/-- **C93 on Windows.** The commands of a call on Windows are within the sizes a server must accept, under the conditions of `C93_commands_partial`. -/
theorem C84_command_lengths_partial (e : Env) (w : WinCalls) (kind : Kind) (name : Bytes) (port : Nat) (cs : List Call) (hf : ∀ c ∈ cs, CallFits c) (m : Message) (hm : MessageFits m)
    (ha : AddressesFit m) (rs : List CallRes) (t u : St) (code : Int) (h1 : Gen.runCalls (windows w) cs e (newClient kind name port) = (.ok rs, t))
    (h2 : Gen.sendMail (windows w) m e t = (.ok code, u)) (hc : ∀ c, t.client.credential = some c → c.username.length + c.password.length ≤ 9000) :
    ∃ evs, u.hist = t.hist ++ evs ∧ ∀ k ch d r, .send k ch d r ∈ evs → k ≠ .content → CommandFits t.client.credential d := by
  obtain ⟨e', rs', t', code', u', h3, h4, -, -, hv, -, hx⟩ := C84_each_mail_partial e w kind name port cs hf m hm rs t u code h1 h2
  obtain ⟨evs, h5, h6⟩ := C93_commands_partial e' m ha t' (by rw [← hv.settings.credential]; exact hc)
  rw [h4] at h5
  obtain ⟨evs0, h9, h10⟩ := hx evs h5
  refine ⟨evs0, h9, fun k c d r hmem hk => ?_⟩
  have := mem_spoken hmem (f := .send k (chanKind c) d r) rfl
  rw [h10] at this
  obtain ⟨x, hx, hs⟩ := List.mem_filterMap.mp this
  obtain ⟨c', rfl, -⟩ := spokenEv_send hs
  rw [hv.settings.credential]
  exact h6 k c' d r hx hk

/-- The hypotheses of the theorems above are met by a mail on Windows that is sent after a login. -/
example : MessageFits windowsMail ∧ NulFree windowsMail ∧ AddressesFit windowsMail ∧ Modest joePlain ∧ joePlain.username.length + joePlain.password.length ≤ 9000 ∧
    (let s := newClient .smtp b!"mail.org" 25
     let r := Gen.sendMail (windows fineCalls) windowsMail
        (scripted ([.data b!"220 hi\r\n"] ++ clear [b!"250-AUTH PLAIN\r\n250 ok\r\n", b!"235 ok\r\n", b!"250 ok\r\n", b!"250 ok\r\n", b!"250 ok\r\n", b!"354 go\r\n", b!"250 ok\r\n"]))
        { s with client := { s.client with credential := some joePlain } }
     (r.1, ((uttered r.2.hist).filterMap fun u => if u.1 = .cmd then some u.2 else none))) =
      (.ok 0, [b!"ehlo localhost\r\n", b!"AUTH PLAIN AGpvZQBwdw==\r\n", b!"MAIL FROM: <me@here.org>\r\n", b!"RCPT TO: <you@there.org>\r\n", b!"RCPT TO: <one@there.org>\r\n",
        b!"DATA\r\n", b!"\r\n.\r\n"]) :=
  ⟨windowsMail_fits, by constructor <;> decide, by constructor <;> decide, ⟨by decide, by decide, by decide⟩, by decide, by decide +kernel⟩

end Verif.Props
