import Verif.Props.WinOrder
import Verif.Props.Files
import Verif.Props.Complete
import Verif.Props.Bcc
import Verif.Props.Downgrade
import Verif.Props.Clear
/-!
# What is sent and read on Windows, and when (C84)

What C30, C32, C38, C57, C58 and C64 say about a mail on POSIX, said about a mail on Windows.
-/
namespace Verif.Props
open Verif Verif.Model Verif.Spec Verif.Proofs

theorem spoken_cut {h pre post : Hist} {e : Ev} (hs : spoken h = pre ++ e :: post) :
    ∃ pre' e' post', h = pre' ++ e' :: post' ∧ spoken pre' = pre ∧ spokenEv e' = some e ∧ spoken post' = post := by
  obtain ⟨l1, l2, rfl, h1, h2⟩ := List.filterMap_eq_append_iff.mp hs
  obtain ⟨l3, a, l4, rfl, h3, h4, h5⟩ := List.filterMap_eq_cons_iff.mp h2
  refine ⟨l1 ++ l3, a, l4, by simp, ?_, h4, h5⟩
  rw [spoken_append]
  show List.filterMap spokenEv l1 ++ List.filterMap spokenEv l3 = pre
  rw [h1, List.filterMap_eq_nil_iff.mpr h3, List.append_nil]

theorem spokenEv_send {e : Ev} {k : SendKind} {c : Chan} {d : Bytes} {r : SendRes} (h : spokenEv e = some (.send k c d r)) : ∃ c', e = .send k c' d r ∧ chanKind c' = c := by
  cases e <;> simp only [spokenEv, Option.some.injEq, reduceCtorEq] at h
  injection h with h1 h2 h3 h4
  subst h1 h3 h4
  exact ⟨_, rfl, h2⟩

theorem spokenEv_readFile {e : Ev} {n : Bytes} {r : Option Bytes} (h : spokenEv e = some (.readFile n r)) : e = .readFile n r := by
  cases e <;> simp only [spokenEv, Option.some.injEq, reduceCtorEq] at h
  exact h

theorem answeredZero_spoken {h : Hist} (hz : AnsweredZero h) : AnsweredZero (spoken h) := hz.imp fun _ => answered_spoken

theorem envelopeAccepted_spoken {m : Message} {h : Hist} (he : EnvelopeAccepted m h) : EnvelopeAccepted m (spoken h) := by
  obtain ⟨⟨f, hf, h1⟩, h2⟩ := he
  exact ⟨⟨f, hf, answered_spoken h1⟩, fun a ha => answered_spoken (h2 a ha)⟩

/-- **C30 on Windows.** The content of a mail goes out on Windows only after the server agreed to the sender, to every recipient and to DATA, under the conditions of
`C30_content_only_after_agreement_partial`. -/
theorem C84_content_after_agreement_partial (e : Env) (w : WinCalls) (kind : Kind) (name : Bytes) (port : Nat) (cs : List Call) (hf : ∀ c ∈ cs, CallFits c) (m : Message) (hm : MessageFits m)
    (hn : NulFree m) (rs : List CallRes) (t u : St) (code : Int) (h1 : Gen.runCalls (windows w) cs e (newClient kind name port) = (.ok rs, t))
    (h2 : Gen.sendMail (windows w) m e t = (.ok code, u)) :
    ∃ evs opening rest, u.hist = t.hist ++ evs ∧ spoken evs = opening ++ rest ∧ contents opening = [] ∧ (t.client.isConnected = true → opening = []) ∧
      ∀ pre k c d r post, rest = pre ++ .send k c d r :: post →
        (k = .content → AnsweredZero pre ∨ (Answered pre b!"DATA\r\n" 354 ∧ EnvelopeAccepted m pre)) ∧
        (k = .cmd → d = b!"DATA\r\n" → AnsweredZero pre ∨ EnvelopeAccepted m pre) := by
  obtain ⟨e', rs', t', code', u', h3, h4, -, -, hv, -, hx⟩ := C84_each_mail_partial e w kind name port cs hf m hm rs t u code h1 h2
  obtain ⟨opening, evs, h5, h6, h7, h8⟩ := C30_content_only_after_agreement_partial e' m hn t'
  rw [h4] at h5
  obtain ⟨evs0, h9, h10⟩ := hx (opening ++ evs) (by rw [← List.append_assoc]; exact h5)
  refine ⟨evs0, spoken opening, spoken evs, h9, by rw [h10, spoken_append], by rw [contents_spoken, h6], fun hcon => by rw [h7 (hv.connected ▸ hcon)]; rfl, ?_⟩
  intro pre k c d r post hs
  obtain ⟨pre', e0, post', rfl, rfl, he, -⟩ := spoken_cut hs
  obtain ⟨c', rfl, -⟩ := spokenEv_send he
  obtain ⟨h11, h12⟩ := h8 pre' k c' d r post' rfl
  refine ⟨fun hk => ?_, fun hk hd => ?_⟩
  · rcases h11 hk with h | ⟨h, h'⟩
    · exact .inl (answeredZero_spoken h)
    · exact .inr ⟨answered_spoken h, envelopeAccepted_spoken h'⟩
  · rcases h12 hk hd with h | h
    · exact .inl (answeredZero_spoken h)
    · exact .inr (envelopeAccepted_spoken h)

theorem handedOver_spoken {ch : Chan} {m : Message} {files : List (Option Bytes)} {is : List Item} (h : HandedOver ch m files is) :
    HandedOver (chanKind ch) m files (is.map itemKind) := by
  obtain ⟨sender, rcpts, data, header, body, rfl, ⟨pre, f, post, h1, h2⟩, h3, h4, h5, h6⟩ := h
  refine ⟨sender.map itemKind, rcpts.map itemKind, data.map itemKind, header, body, ?_, ⟨pre, f, post, h1, turns_spoken h2⟩, turns_spoken h3, turns_spoken h4, h5, h6⟩
  simp only [List.map_append, List.map_map]
  rfl

/-- **C58 on Windows.** The mark of the end of a mail is sent at most once in a call on Windows, and only after the whole mail, under the conditions of `C58_never_truncated_partial`. -/
theorem C84_never_truncated_partial (e : Env) (w : WinCalls) (kind : Kind) (name : Bytes) (port : Nat) (cs : List Call) (hf : ∀ c ∈ cs, CallFits c) (m : Message) (hm : MessageFits m)
    (hn : NulFree m) (rs : List CallRes) (t u : St) (code : Int) (h1 : Gen.runCalls (windows w) cs e (newClient kind name port) = (.ok rs, t))
    (h2 : Gen.sendMail (windows w) m e t = (.ok code, u)) :
    ∃ evs opening rest, u.hist = t.hist ++ evs ∧ spoken evs = opening ++ rest ∧ (t.client.isConnected = true → opening = []) ∧
      (∀ ch r, .send .cmd ch b!"\r\n.\r\n" r ∉ opening) ∧
      ∀ pre ch r post, rest = pre ++ .send .cmd ch b!"\r\n.\r\n" r :: post →
        (AnsweredZero pre ∨ WroteToZero pre ∨ ¬ NoShortWrites pre ∨
          ∃ files, HandedOver ch m files (conversation pre) ∧ (elems m.attachments).length = files.length ∧ ∀ p ∈ (elems m.attachments).zip files, .readFile p.1.filename p.2 ∈ pre) ∧
        ∀ ch' r', .send .cmd ch' b!"\r\n.\r\n" r' ∉ pre ∧ .send .cmd ch' b!"\r\n.\r\n" r' ∉ post := by
  obtain ⟨e', rs', t', code', u', h3, h4, -, -, hv, -, hx⟩ := C84_each_mail_partial e w kind name port cs hf m hm rs t u code h1 h2
  obtain ⟨opening, evs, h5, h6, h7, h8⟩ := C58_never_truncated_partial e' m hn t'
  rw [h4] at h5
  obtain ⟨evs0, h9, h10⟩ := hx (opening ++ evs) (by rw [← List.append_assoc]; exact h5)
  have none : ∀ h : Hist, (∀ ch r, .send .cmd ch b!"\r\n.\r\n" r ∉ h) → ∀ ch r, .send .cmd ch b!"\r\n.\r\n" r ∉ spoken h := by
    intro h hh ch r hmem
    obtain ⟨x, hx, hs⟩ := List.mem_filterMap.mp hmem
    obtain ⟨c', rfl, -⟩ := spokenEv_send hs
    exact hh c' r hx
  refine ⟨evs0, spoken opening, spoken evs, h9, by rw [h10, spoken_append], fun hcon => by rw [h6 (hv.connected ▸ hcon)]; rfl, none _ h7, ?_⟩
  intro pre ch r post hs
  obtain ⟨pre', e0, post', rfl, rfl, he, rfl⟩ := spoken_cut hs
  obtain ⟨c', rfl, rfl⟩ := spokenEv_send he
  obtain ⟨h11, h12⟩ := h8 pre' c' r post' rfl
  refine ⟨?_, fun ch' r' => ⟨none pre' (fun c r => (h12 c r).1) ch' r', none post' (fun c r => (h12 c r).2) ch' r'⟩⟩
  rcases h11 with h | ⟨k, d, n, h⟩ | h | ⟨files, h, h', h''⟩
  · exact .inl (answeredZero_spoken h)
  · exact .inr (.inl ⟨k, d, n, rawSend_spoken.mpr h⟩)
  · exact .inr (.inr (.inl fun hs => h (noShortWrites_of_spoken hs)))
  · exact .inr (.inr (.inr ⟨files, by rw [conversation_spoken]; exact handedOver_spoken h, h', fun p hp => readFile_spoken (h'' p hp)⟩))

/-- **C32 on Windows.** Everything a call sends on Windows is part of the mail without its blind-copy recipients, or announces one of these. -/
theorem C84_bcc_only_in_rcpt_partial (e : Env) (w : WinCalls) (kind : Kind) (name : Bytes) (port : Nat) (cs : List Call) (hf : ∀ c ∈ cs, CallFits c) (m : Message) (hm : MessageFits m)
    (hn : NulFree m) (rs : List CallRes) (t u : St) (code : Int) (h1 : Gen.runCalls (windows w) cs e (newClient kind name port) = (.ok rs, t))
    (h2 : Gen.sendMail (windows w) m e t = (.ok code, u)) :
    ∃ evs, u.hist = t.hist ++ evs ∧ ∀ k c d r, .send k c d r ∈ evs →
      Speech t.client.credential (withoutBcc m) k d ∨ (k = .cmd ∧ ∃ a ∈ elems m.bcc, d = b!"RCPT TO: <" ++ a.email ++ b!">\r\n") := by
  obtain ⟨e', rs', t', code', u', h3, h4, -, -, hv, -, hx⟩ := C84_each_mail_partial e w kind name port cs hf m hm rs t u code h1 h2
  obtain ⟨evs, h5, h6⟩ := C32_only_in_rcpt e' t' m hn
  rw [h4] at h5
  obtain ⟨evs0, h9, h10⟩ := hx evs h5
  refine ⟨evs0, h9, fun k c d r hmem => ?_⟩
  have := mem_spoken hmem (f := .send k (chanKind c) d r) rfl
  rw [h10] at this
  obtain ⟨x, hx, hs⟩ := List.mem_filterMap.mp this
  obtain ⟨c', rfl, -⟩ := spokenEv_send hs
  rw [hv.settings.credential]
  exact h6 k c' d r hx

theorem filesRead_spoken (h : Hist) : filesRead (spoken h) = filesRead h := by
  unfold filesRead spoken
  rw [List.filterMap_filterMap]
  congr 1
  funext x
  cases x <;> rfl

/-- **C64 on Windows.** A call on Windows reads no file or exactly the attached ones; all of them if it returns 0; and none before the server agreed to the mail. -/
theorem C84_files_partial (e : Env) (w : WinCalls) (kind : Kind) (name : Bytes) (port : Nat) (cs : List Call) (hf : ∀ c ∈ cs, CallFits c) (m : Message) (hm : MessageFits m)
    (hn : NulFree m) (rs : List CallRes) (t u : St) (code : Int) (h1 : Gen.runCalls (windows w) cs e (newClient kind name port) = (.ok rs, t))
    (h2 : Gen.sendMail (windows w) m e t = (.ok code, u)) :
    ∃ evs, u.hist = t.hist ++ evs ∧ (filesRead evs = [] ∨ filesRead evs = attachedFiles m) ∧ (code = 0 → filesRead evs = attachedFiles m) ∧
      ∀ pre n r post, spoken evs = pre ++ .readFile n r :: post → AnsweredZero pre ∨ (Answered pre b!"DATA\r\n" 354 ∧ EnvelopeAccepted m pre) := by
  obtain ⟨e', rs', t', code', u', h3, h4, -, hc, hv, -, hx⟩ := C84_each_mail_partial e w kind name port cs hf m hm rs t u code h1 h2
  obtain ⟨evs, h5, h6⟩ := C64_no_file_before_agreement e' m hn t'
  obtain ⟨evs', h5', h7⟩ := C64_reads_exactly_the_attached_files e' m t'
  obtain rfl : evs = evs' := List.append_cancel_left (h5.symm.trans h5')
  rw [h4] at h5
  obtain ⟨evs0, h9, h10⟩ := hx evs h5
  have same : filesRead evs0 = filesRead evs := by rw [← filesRead_spoken, h10, filesRead_spoken]
  refine ⟨evs0, h9, by rw [same]; exact h7, fun h0 => ?_, ?_⟩
  · subst h0
    have hc : code' = 0 := by
      rcases hc with h | ⟨h | h | h, -⟩ | ⟨h, -⟩
      · exact h.symm
      all_goals cases h
    subst hc
    obtain ⟨evs', h5', h8⟩ := C64_success_reads_all e' m t' u' h4
    obtain rfl : evs = evs' := List.append_cancel_left (h5.symm.trans h5')
    rw [same, h8]
  · intro pre n r post hs
    rw [h10] at hs
    obtain ⟨pre', e0, post', rfl, rfl, he, -⟩ := spoken_cut hs
    obtain rfl := spokenEv_readFile he
    rcases h6 pre' n r post' rfl with h | ⟨h, h'⟩
    · exact .inl (answeredZero_spoken h)
    · exact .inr ⟨answered_spoken h, envelopeAccepted_spoken h'⟩

/-! ### TLS -/

/-- **C38 on Windows, opportunistic client.** As long as no session was without STARTTLS, all commands the opportunistic client sends in clear on Windows are public ones, up to and including
the next mail, under the conditions of `C38_opportunistic_partial`. -/
theorem C84_opportunistic_public_partial (e : Env) (w : WinCalls) (name : Bytes) (port : Nat) (cs : List Call) (hf : ∀ c ∈ cs, CallFits c) (hk : ∀ b, .setKeepUsingBaseSendCommands b ∉ cs)
    (m : Message) (hm : MessageFits m) (rs : List CallRes) (t u : St) (code : Int) (h1 : Gen.runCalls (windows w) cs e (newClient .opportunistic name port) = (.ok rs, t))
    (h2 : Gen.sendMail (windows w) m e t = (.ok code, u)) (hp : t.client.ptrRaw = false) (fd : Int) (d : Bytes) (r : SendRes) (h : .send .cmd (.raw fd) d r ∈ u.hist) :
    PublicOf (cs ++ [.sendMail m]) d := by
  obtain ⟨e', rs', t', code', u', h3, h4, -, -, hv, -, hs, hx⟩ := each_mail e w .opportunistic name port cs hf m hm rs t u code h1 h2
  have h3' : runCalls cs e' { client := Client.init .opportunistic name port, hist := [] } = (.ok rs', t') := h3
  refine C38_opportunistic_partial e' name port cs m hk (by rw [h3']; exact hv.settings.ptrRaw ▸ hp) fd d r ?_
  rw [h3', h4]
  obtain ⟨evs', h5, -⟩ := C64_reads_exactly_the_attached_files e' m t'
  rw [h4] at h5
  obtain ⟨evs, h6, h7⟩ := hx evs' h5
  refine rawSend_spoken.mp ?_
  rw [h5, spoken_append, ← hs, ← h7, ← spoken_append, ← h6]
  exact rawSend_spoken.mpr h

theorem staysUpgraded_of_spoken {h : Hist} (hs : StaysUpgraded (spoken h)) : StaysUpgraded h := by
  rintro a fd r b rfl k d r' hmem
  refine hs (spoken a) fd r (spoken b) (by rw [spoken_append, spoken_send]; rfl) k d r' (mem_spoken hmem rfl)

theorem staysUpgraded_spoken {h : Hist} (hs : StaysUpgraded h) : StaysUpgraded (spoken h) := by
  intro a fd r b he k d r' hmem
  obtain ⟨a', e0, b', rfl, rfl, h1, rfl⟩ := spoken_cut he
  obtain ⟨c', rfl, h2⟩ := spokenEv_send h1
  cases c' with
  | tls i f => cases h2
  | raw f =>
    cases h2
    exact hs a' fd r b' rfl k d r' (rawSend_spoken.mp hmem)

instance lifelong_kind : Lifelong SameKind where
  call := fun _ _ => rfl
  destroy := fun _ => rfl
  setKeep := fun _ _ => rfl
  serverName := fun _ _ => rfl
  port := fun _ _ => rfl
  batch := fun _ _ => rfl
  timeout := fun _ _ => rfl
  credential := fun _ _ => rfl
  accept := fun _ _ => rfl

/-- **C57 on Windows.** After STARTTLS nothing else is sent in clear on Windows, under the conditions of `C57_no_downgrade_partial`. -/
theorem C84_no_downgrade_partial (e : Env) (w : WinCalls) (name : Bytes) (port : Nat) (cs : List Call) (hf : ∀ c ∈ cs, CallFits c) (m : Message) (hm : MessageFits m)
    (rs : List CallRes) (t u : St) (code : Int) (h1 : Gen.runCalls (windows w) cs e (newClient .opportunistic name port) = (.ok rs, t))
    (h2 : Gen.sendMail (windows w) m e t = (.ok code, u)) (hp : t.client.ptrRaw = false) :
    ∃ evs, u.hist = t.hist ++ evs ∧ (StaysUpgraded evs ∨ Answered (spoken evs) b!"STARTTLS\r\n" 0 ∨ ∃ r, .send .cmd (.raw 0) b!"STARTTLS\r\n" r ∈ evs) := by
  obtain ⟨e', rs', t', code', u', h3, h4, -, -, hv, -, hx⟩ := C84_each_mail_partial e w .opportunistic name port cs hf m hm rs t u code h1 h2
  have hk : t'.client.kind = .opportunistic := by
    have := (runCalls_steps (R := SameKind) (env := e') cs).state (newClient .opportunistic name port)
    rw [h3] at this
    exact this
  obtain ⟨evs', h5, h6⟩ := C57_no_downgrade_partial e' t' m hk (hv.settings.ptrRaw ▸ hp)
  rw [h4] at h5
  obtain ⟨evs, h7, h8⟩ := hx evs' h5
  refine ⟨evs, h7, ?_⟩
  rcases h6 with h | h | ⟨r, h⟩
  · exact .inl (staysUpgraded_of_spoken (h8 ▸ staysUpgraded_spoken h))
  · exact .inr (.inl (h8 ▸ answered_spoken h))
  · exact .inr (.inr ⟨r, rawSend_spoken.mp (h8 ▸ rawSend_spoken.mpr h)⟩)

/-! ### A run -/

/-- A message with attachments and a blind-copy recipient. -/
def windowsMail : Message := { filesMail with bcc := { ptr := some [{ email := b!"one@there.org", displayName := [] }], count := 1 } }

theorem windowsMail_fits : MessageFits windowsMail where
  sender := mail_fits.sender
  recipients := by
    intro l hl as ha a hm
    have : ∀ l ∈ [windowsMail.to, windowsMail.cc, windowsMail.bcc], ∀ a ∈ l.ptr.getD [], (rcptTo a).length < 2 ^ 31 := by decide +kernel
    exact this l hl a (by rw [ha]; exact hm)
  fromLine := mail_fits.fromLine
  toLine := mail_fits.toLine
  ccLine := mail_fits.ccLine
  subject := mail_fits.subject

/-- The opportunistic client on Windows: after STARTTLS only TLS. -/
example :
    (let r := Gen.sendMail (windows fineCalls) windowsMail
        (scripted ([.data b!"220 hi\r\n"] ++ clear [b!"250-STARTTLS\r\n250 ok\r\n", b!"220 go\r\n"] ++
          [.data b!"250 ok\r\n", .data b!"250 ok\r\n", .data b!"250 ok\r\n", .data b!"250 ok\r\n", .data b!"354 go\r\n", .data b!"250 ok\r\n"])) (newClient .opportunistic b!"mail.org" 25)
     (r.1, r.2.hist.filterMap fun | .send .cmd (.raw _) d _ => some d | _ => none)) =
      (.ok 0, [b!"ehlo localhost\r\n", b!"STARTTLS\r\n"]) := by decide +kernel

/-- A delivery on Windows: the hypotheses of the theorems above are met. -/
example : MessageFits windowsMail ∧ NulFree windowsMail ∧
    (let r := Gen.sendMail (windows fineCalls) windowsMail
        (scripted ([.data b!"220 hi\r\n"] ++ clear [b!"250 ok\r\n", b!"250 ok\r\n", b!"250 ok\r\n", b!"250 ok\r\n", b!"354 go\r\n", b!"250 ok\r\n"])) (newClient .smtp b!"mail.org" 25)
     (r.1, filesRead r.2.hist, (commands r.2.hist).drop 1)) =
      (.ok 0, [b!"/a.txt", b!"b.png", b!"/a.txt"],
        [b!"MAIL FROM: <me@here.org>\r\n", b!"RCPT TO: <you@there.org>\r\n", b!"RCPT TO: <one@there.org>\r\n", b!"DATA\r\n", b!"\r\n.\r\n"]) :=
  ⟨windowsMail_fits, by constructor <;> decide, by decide +kernel⟩

end Verif.Props
