import Verif.Proofs.LongLines
import Verif.Props.Dialogue
/-!
# C93: the length of what is sent
-/
namespace Verif.Props
open Verif Verif.Model Verif.Spec

/-- **C93, partial (commands).** When the addresses are within the limit of RFC 5321 and user name and password have together at most 9000 bytes, every
command a call of `sendMail` sends or tries is within the limit of RFC 5321, or it is a line of the requested authentication and within the limit of
RFC 4954, in every run. Missing: longer addresses (`C93_long_command`). -/
theorem C93_commands_partial (env : Env) (m : Message) (hm : AddressesFit m) (s : St)
    (hc : ∀ c, s.client.credential = some c → c.username.length + c.password.length ≤ 9000) :
    ∃ evs, (sendMail m env s).2.hist = s.hist ++ evs ∧
      ∀ k ch d r, .send k ch d r ∈ evs → k ≠ .content → CommandFits s.client.credential d := by
  obtain ⟨_, evs, h1, h2⟩ := (Proofs.sendMail_fitting (env := env) hm).state s
  refine ⟨evs, h1, fun k ch d r hd hk => ?_⟩
  have := h2 _ hd
  cases k with
  | cmd => exact this rfl hc
  | content => exact absurd rfl hk
  | quit => exact .inl (by rw [show d = quitCmd from this]; decide)

/-- Without a credential every command has at most 512 octets. -/
theorem C93_no_login_partial (env : Env) (m : Message) (hm : AddressesFit m) (s : St) (hc : s.client.credential = none) :
    ∃ evs, (sendMail m env s).2.hist = s.hist ++ evs ∧
      ∀ k ch d r, .send k ch d r ∈ evs → k ≠ .content → d.length ≤ 512 := by
  obtain ⟨evs, h1, h2⟩ := C93_commands_partial env m hm s (fun c h => by rw [hc] at h; cases h)
  refine ⟨evs, h1, fun k ch d r hd hk => ?_⟩
  rcases h2 k ch d r hd hk with h | ⟨h, _⟩
  · exact h
  · rw [hc] at h; cases h

/-- **C93, partial (text).** When the texts chosen by the caller are within the limits and no file read in the call has more than 747 bytes, what the call
sent or tried as content is an initial part of a text all of whose lines are within the limit of RFC 5321, and it is the whole of it when the result is 0.
Missing: longer files (`C93_long_line`), and runs in which a reply reads as number 0. -/
theorem C93_text_partial (env : Env) (m : Message) (hm : NulFree m) (ht : TextFits m) (s : St) (hc : ∀ c, s.client.credential = some c → Modest c) :
    ∃ evs, (sendMail m env s).2.hist = s.hist ++ evs ∧
      (ReplyIn evs 0 ∨ (∃ n c, .readFile n (some c) ∈ evs ∧ 747 < c.length) ∨
        ∃ text, saidContent (uttered evs) <+: text ∧ LinesFit text ∧ ((sendMail m env s).1 = .ok 0 → saidContent (uttered evs) = text)) := by
  obtain ⟨evs, before, rest, files, h1, ⟨o, f, hd, _, _, _, h2, rfl⟩, _, h4, h5, h6, body, h7, rfl⟩ := Proofs.sendMail_follows_exactly (env := env) hm s hc
  refine ⟨evs, h1, Classical.or_iff_not_imp_left.mpr fun hz => Classical.or_iff_not_imp_left.mpr fun hfiles => ?_⟩
  obtain ⟨p, full⟩ := h6 hz
  have said : ∀ a b : List (SendKind × Bytes), a <+: b → saidContent a <+: saidContent b := by
    rintro a _ ⟨c, rfl⟩
    rw [saidContent_append]
    exact List.prefix_append ..
  have before : saidContent ((o ++ f ++ (recipients m).map (fun a => b!"RCPT TO: <" ++ a.email ++ b!">\r\n") ++ [b!"DATA\r\n"]).map (.cmd, ·) ++ hd.map (.content, ·)) =
      headerText m := by
    rw [saidContent_append, saidContent_cmds, saidContent_contents, List.nil_append, h2]
  have rest : saidContent (body.map (.content, ·) ++ [(.cmd, b!"\r\n.\r\n")]) = Proofs.bodyText m files := by
    have := saidContent_cmds [b!"\r\n.\r\n"]
    rw [List.map_singleton] at this
    rw [saidContent_append, saidContent_contents, this, List.append_nil, h7]
  have all := said _ _ p
  rw [saidContent_append, before, rest] at all
  have done : (sendMail m env s).1 = .ok 0 → saidContent (uttered evs) = headerText m ++ Proofs.bodyText m files := fun h0 => by
    rw [full (sendMail m env s).2 (Prod.ext h0 rfl), saidContent_append, before, rest]
  rcases h5 with h | h
  · refine ⟨headerText m, ?_, ?_, fun h0 => ?_⟩
    · rw [← before]
      exact said _ _ (List.prefix_of_prefix_length_le p (List.prefix_append ..) h.length_le)
    · have := Proofs.headerText_fits ht (t := []) (Proofs.fits_short (by decide))
      rwa [List.append_nil] at this
    · have hl := h.length_le
      rw [full (sendMail m env s).2 (Prod.ext h0 rfl), List.length_append, List.length_append (as := body.map _)] at hl
      simp only [List.length_cons, List.length_nil] at hl
      omega
  · refine ⟨_, all, Proofs.headerText_fits ht (Proofs.bodyText_fits ht ?_), done⟩
    intro c hmem
    obtain ⟨i, hi, hic⟩ := List.getElem_of_mem hmem
    have hi' : i < (elems m.attachments).length := by rw [h.1]; exact hi
    have hz : ((elems m.attachments)[i], some c) ∈ (elems m.attachments).zip files := by
      rw [← hic]
      have : i < ((elems m.attachments).zip files).length := by rw [List.length_zip]; omega
      have := List.getElem_mem this
      rwa [List.getElem_zip] at this
    have := h.2 _ hz
    exact Nat.le_of_not_lt fun hlong => hfiles ⟨_, c, this, hlong⟩

/-- An address of 505 octets. The constructor accepts it. -/
def longAddress : MessageAddress := { email := List.replicate 500 97 ++ b!"@b.cd", displayName := [] }

theorem C93_constructor_accepts : (MessageAddress.new (some longAddress.email) (some [])).toOption = some longAddress := by decide +kernel

/-- Commands of more than 512 octets in a history. -/
def longCommand (h : Hist) : Bool := h.any fun | .send .cmd _ d _ => d.length > 512 | _ => false

/-- **C93, refuted** for long addresses: the constructor of `MessageAddress` has no limit, and the command is sent whatever its length. -/
theorem C93_long_command : ¬ ∀ (env : Env) (m : Message) (s : St), s.client.credential = none →
    (∀ a ∈ m.from :: recipients m, (MessageAddress.new (some a.email) (some a.displayName)).toOption = some a) →
    ∃ evs, (sendMail m env s).2.hist = s.hist ++ evs ∧
      ∀ k ch d r, .send k ch d r ∈ evs → k ≠ .content → d.length ≤ 512 := by
  intro h
  obtain ⟨evs, h1, h2⟩ := h (scripted ([.data b!"220 hi\r\n"] ++ clear [b!"250 ok\r\n"])) { mail with «from» := longAddress } (fresh .smtp) rfl (by
    intro a ha
    simp only [List.mem_cons] at ha
    rcases ha with rfl | ha
    · exact C93_constructor_accepts
    · revert a; decide +kernel)
  have hl : longCommand evs = true := by
    have : evs = (sendMail { mail with «from» := longAddress } (scripted ([.data b!"220 hi\r\n"] ++ clear [b!"250 ok\r\n"])) (fresh .smtp)).2.hist := h1.symm
    rw [this]
    decide +kernel
  obtain ⟨e, he, hl⟩ := List.any_eq_true.mp hl
  match e, he, hl with
  | .send .cmd ch d r, he, hl =>
    have := h2 _ _ _ _ he (by decide)
    simp only [decide_eq_true_eq] at hl
    omega

/-- A file of 900 bytes. -/
def longFile : Bytes := List.replicate 900 97

/-- **C93, refuted** for the lines of the message: a file is sent as one line. Even with addresses, subject and body of a few characters a line has more
than 998 characters before its CR LF. -/
theorem C93_long_line : ∃ (env : Env) (m : Message), NulFree m ∧ AddressesFit m ∧ (∀ l ∈ lines (headerText m ++ m.body), l.length ≤ 100) ∧
    (sendMail m env (fresh .smtp)).1 = .ok 0 ∧
    ∃ l ∈ lines (saidContent (uttered (sendMail m env (fresh .smtp)).2.hist)), l.length + 2 > textLimit := by
  let env : Env := { scripted ([.data b!"220 hi\r\n"] ++ clear [b!"250 ok\r\n", b!"250 ok\r\n", b!"250 ok\r\n", b!"250 ok\r\n", b!"250 ok\r\n", b!"250 ok\r\n",
    b!"354 go\r\n", b!"250 ok\r\n"]) with readFile := fun _ _ => some longFile }
  refine ⟨env, bigMail, ⟨by decide, by decide, by decide, by decide, by decide⟩, ⟨by decide, by decide⟩, by decide +kernel, by decide +kernel, ?_⟩
  have : (lines (saidContent (uttered (sendMail bigMail env (fresh .smtp)).2.hist))).any (fun l => decide (l.length + 2 > textLimit)) = true := by
    decide +kernel
  obtain ⟨l, hl, h⟩ := List.any_eq_true.mp this
  exact ⟨l, hl, by simpa using h⟩

/-! Non-vacuity: a message within the limits, and a login with a token whose command is longer than other commands may be. -/

example : AddressesFit bigMail := ⟨by decide, by decide⟩

example : NulFree bigMail ∧ TextFits bigMail ∧
    (let r := sendMail bigMail (scripted ([.data b!"220 hi\r\n"] ++ clear [b!"250 ok\r\n", b!"250 ok\r\n", b!"250 ok\r\n", b!"250 ok\r\n", b!"250 ok\r\n", b!"250 ok\r\n",
        b!"354 go\r\n", b!"250 ok\r\n"])) (fresh .smtp)
     (r.1, r.2.hist.filter (fun | .readFile .. => true | _ => false), (lines (saidContent (uttered r.2.hist))).map (·.length))) =
      (.ok 0, [.readFile b!"a.txt" (some b!"file")], [17, 38, 16, 14, 45, 0, 5, 39, 0, 4, 0, 5, 34, 41, 33, 0, 8, 7]) :=
  ⟨⟨by decide, by decide, by decide, by decide, by decide⟩, ⟨by decide +kernel, by decide, by decide, by decide⟩, by decide +kernel⟩

def longToken : Credential := { username := b!"joe", password := List.replicate 600 97 }

example :
    (let r := sendMail mail (scripted ([.data b!"220 hi\r\n"] ++ clear [b!"250-AUTH XOAUTH2\r\n250 ok\r\n", b!"235 ok\r\n", b!"250 ok\r\n", b!"250 ok\r\n",
          b!"354 go\r\n", b!"250 ok\r\n"]))
        { fresh .smtp with client := { (fresh .smtp).client with credential := some longToken } }
     (r.1, (uttered r.2.hist).filterMap fun u => if u.1 = .cmd then some u.2.length else none)) =
      (.ok 0, [16, 847, 26, 26, 6, 5]) := by decide +kernel

end Verif.Props
