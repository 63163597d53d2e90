import Verif.Proofs.LineEnds
import Verif.Props.SevenBit
/-!
# C97: CR and LF are only sent together
-/
namespace Verif.Props
open Verif Verif.Model Verif.Spec Verif.Proofs

/-- What a call sent or tried as content, seen as one text, when no reply reads as number 0: an initial part of a text in which CR and LF occur only together,
and the whole of it when the result is 0. -/
def ContentEnds (code : Res Int) (evs : Hist) : Prop :=
  ∃ text, saidContent (uttered evs) <+: text ∧ LineEnds text ∧ (code = .ok 0 → saidContent (uttered evs) = text)

/-- **C97, partial.** When CR and LF occur only together in the texts of the message, they do so in every command a call of `sendMail` sends or tries and in the text
of the message it hands over, whatever the files contain and however long they are, and whatever user name and password contain. Missing: other texts
(`C97_lone_line_feed`), and the text in runs in which a reply reads as number 0. -/
theorem C97_line_ends_partial (env : Env) (m : Message) (hn : NulFree m) (hm : LineEndsOf m) (s : St) (hc : ∀ c, s.client.credential = some c → Modest c) :
    ∃ evs, (sendMail m env s).2.hist = s.hist ++ evs ∧
      (∀ k ch d r, .send k ch d r ∈ evs → k ≠ .content → LineEnds d) ∧
      (ReplyIn evs 0 ∨ ContentEnds (sendMail m env s).1 evs) := by
  obtain ⟨evs, before, rest, files, h1, ⟨o, f, hd, _, _, _, h2, rfl⟩, _, _, _, h6, body, h7, rfl⟩ := Proofs.sendMail_follows_exactly (env := env) hn s hc
  refine ⟨evs, h1, ?_, Classical.or_iff_not_imp_left.mpr fun hz => ?_⟩
  · obtain ⟨_, evs', h1', h2'⟩ := (Proofs.sendMail_pairedEnds (env := env) hn hm).state s
    have : evs' = evs := List.append_cancel_left (h1'.symm.trans h1)
    subst this
    intro k ch d r hd hk
    have := h2' _ hd
    cases k with
    | cmd => exact this rfl
    | content => exact absurd rfl hk
    | quit =>
      rw [show d = quitCmd from this]
      exact lineEnds_paired _ (by decide)
  obtain ⟨p, full⟩ := h6 hz
  have said : ∀ a b : List (SendKind × Bytes), a <+: b → saidContent a <+: saidContent b := by
    rintro a _ ⟨c, rfl⟩
    rw [saidContent_append]
    exact List.prefix_append ..
  have before : saidContent ((o ++ f ++ (recipients m).map (fun a => b!"RCPT TO: <" ++ a.email ++ b!">\r\n") ++ [b!"DATA\r\n"]).map (.cmd, ·) ++ hd.map (.content, ·)) =
      headerText m := by
    rw [saidContent_append, saidContent_cmds, saidContent_contents, List.nil_append, h2]
  have rest : saidContent (body.map (.content, ·) ++ [(.cmd, b!"\r\n.\r\n")]) = Proofs.bodyText m files := by
    have := saidContent_cmds [b!"\r\n.\r\n"]
    rw [List.map_singleton] at this
    rw [saidContent_append, saidContent_contents, this, List.append_nil, h7]
  have all := said _ _ p
  rw [saidContent_append, before, rest] at all
  refine ⟨_, all, (headerText_lineEnds hm).append (bodyText_lineEnds hm files), fun h0 => ?_⟩
  rw [full (sendMail m env s).2 (Prod.ext h0 rfl), saidContent_append, before, rest]

/-- The same on Windows. -/
theorem C97_windows_partial (e : Env) (w : WinCalls) (kind : Kind) (name : Bytes) (port : Nat) (cs : List Call) (hf : ∀ c ∈ cs, CallFits c) (m : Message) (hm : MessageFits m)
    (hn : NulFree m) (hl : LineEndsOf m) (rs : List CallRes) (t u : St) (code : Int) (h1 : Gen.runCalls (windows w) cs e (newClient kind name port) = (.ok rs, t))
    (h2 : Gen.sendMail (windows w) m e t = (.ok code, u)) (hc : ∀ c, t.client.credential = some c → Modest c) :
    ∃ evs, u.hist = t.hist ++ evs ∧ (∀ k ch d r, .send k ch d r ∈ evs → k ≠ .content → LineEnds d) ∧
      (ReplyIn (spoken evs) 0 ∨ ContentEnds (.ok code) evs) := by
  obtain ⟨e', rs', t', code', u', h3, h4, -, hcode, hv, -, hx⟩ := C84_each_mail_partial e w kind name port cs hf m hm rs t u code h1 h2
  obtain ⟨evs, h5, h6, h7⟩ := C97_line_ends_partial e' m hn hl t' (by intro c h; rw [← hv.settings.credential] at h; exact hc c h)
  rw [h4] at h5 h7
  obtain ⟨evs0, h9, h10⟩ := hx evs h5
  have same : uttered evs0 = uttered evs := by rw [← uttered_spoken, h10, uttered_spoken]
  refine ⟨evs0, h9, fun k c d r hmem => ?_, ?_⟩
  · have := mem_spoken hmem (f := .send k (chanKind c) d r) rfl
    rw [h10] at this
    obtain ⟨x, hx, hs⟩ := List.mem_filterMap.mp this
    obtain ⟨c', rfl, -⟩ := spokenEv_send hs
    exact h6 k c' d r hx
  · rcases h7 with hz | ⟨text, p, q, f⟩
    · exact .inl (by rw [h10]; exact replyIn_spoken hz)
    · refine .inr ⟨text, by rw [same]; exact p, q, fun h0 => ?_⟩
      cases h0
      have hc : code' = 0 := by
        rcases hcode with h | ⟨h | h | h, -⟩ | ⟨h, -⟩
        · exact h.symm
        all_goals cases h
      rw [same]
      exact f (by rw [hc])

/-- A message whose body has a line feed as the end of a line, as every text file on Linux. -/
def unixMail : Message := { mail with body := b!"one\ntwo" }

theorem lineEnds_test {t : Bytes} (h : LineEnds t) : paired t = true := by
  induction h with
  | nil => rfl
  | crlf _ ih => simpa [paired] using ih
  | @char c t h1 h2 _ ih =>
    cases t with
    | nil => simp [paired, h1, h2]
    | cons d t => rw [paired, if_neg h1, Bool.and_eq_true, bne_iff_ne]; exact ⟨h2, ih⟩

/-- **C97, refuted** for other texts: a lone line feed in the body is sent as it is, and the result is 0. -/
theorem C97_lone_line_feed : ∃ (env : Env) (m : Message), NulFree m ∧ (sendMail m env (fresh .smtp)).1 = .ok 0 ∧
    ¬ LineEnds (saidContent (uttered (sendMail m env (fresh .smtp)).2.hist)) := by
  refine ⟨plainServer, unixMail, ⟨by decide, by decide, by decide, by decide, by decide⟩, by decide +kernel, fun h => ?_⟩
  have h1 := lineEnds_test h
  have h2 : paired (saidContent (uttered (sendMail unixMail plainServer (fresh .smtp)).2.hist)) = false := by decide +kernel
  rw [h2] at h1
  cases h1

/-! Non-vacuity: a message with an attachment and a body of two lines. -/

theorem lineEndsOf_test {m : Message} (h : ((m.from :: recipients m).all fun a => paired a.email && paired a.displayName) = true)
    (h2 : (paired m.subject && paired m.body && paired m.mime) = true) (h3 : ((elems m.attachments).all fun a => paired a.name && paired a.contentId) = true) :
    LineEndsOf m := by
  simp only [Bool.and_eq_true] at h2
  refine ⟨fun a ha => ?_, lineEnds_paired _ h2.1.1, lineEnds_paired _ h2.1.2, lineEnds_paired _ h2.2, fun a ha => ?_⟩
  · have := List.all_eq_true.mp h a ha
    simp only [Bool.and_eq_true] at this
    exact ⟨lineEnds_paired _ this.1, lineEnds_paired _ this.2⟩
  · have := List.all_eq_true.mp h3 a ha
    simp only [Bool.and_eq_true] at this
    exact ⟨lineEnds_paired _ this.1, lineEnds_paired _ this.2⟩

def twoLines : Message := { bigMail with body := b!"one\r\ntwo" }

example : NulFree twoLines ∧ LineEndsOf twoLines ∧ (sendMail twoLines loginServer umlautClient).1 = .ok 0 :=
  ⟨⟨by decide, by decide, by decide, by decide, by decide⟩, lineEndsOf_test (by decide) (by decide) (by decide), by decide +kernel⟩

example : MessageFits windowsMail ∧ NulFree windowsMail ∧ LineEndsOf windowsMail :=
  ⟨windowsMail_fits, by constructor <;> decide, lineEndsOf_test (by decide) (by decide) (by decide)⟩

end Verif.Props
