import Verif.Props.WinDialogue
import Verif.Props.Welcome
/-!
# The order of things on Windows (C84)

What C56 and C77 say about a mail on POSIX, said about a mail on Windows.
-/
namespace Verif.Props
open Verif Verif.Model Verif.Spec Verif.Proofs

theorem isMail_spoken {h : Hist} (hm : ∀ e ∈ h, isMail e = false) : ∀ e ∈ spoken h, isMail e = false := by
  intro e he
  obtain ⟨x, hx, hy⟩ := List.mem_filterMap.mp he
  have := hm x hx
  cases x <;> simp only [spokenEv, Option.some.injEq, reduceCtorEq] at hy <;> subst hy <;> first | rfl | skip
  rename_i k _ _ _
  cases k <;> exact this

theorem commands_spoken (h : Hist) : commands (spoken h) = commands h := by
  unfold commands spoken
  rw [List.filterMap_filterMap]
  congr 1
  funext x
  cases x <;> try rfl
  rename_i k _ _ _
  cases k <;> rfl

theorem replyIn_spoken {h : Hist} {code : Int} (hr : ReplyIn h code) : ReplyIn (spoken h) code := by
  obtain ⟨pre, mid, post, rfl, h1, h2⟩ := hr
  exact ⟨spoken pre, spoken mid, spoken post, by rw [spoken_append, spoken_append], quiet_spoken h1, by rw [heard_spoken]; exact h2⟩

theorem noShortWrites_of_spoken {h : Hist} (hs : NoShortWrites (spoken h)) : NoShortWrites h := fun k c d n hmem => hs k (chanKind c) d n (mem_spoken hmem rfl)

theorem endsWithLogin_spoken {ch : Chan} {c : Credential} {h : Hist} (hl : EndsWithLogin ch c h) : EndsWithLogin (chanKind ch) c (spoken h) := by
  obtain ⟨l, items, h1, h2, h3⟩ := hl
  refine ⟨l, items.map itemKind, h1, turns_spoken h2, fun hs => ?_⟩
  obtain ⟨pre, hp⟩ := h3 (noShortWrites_of_spoken hs)
  exact ⟨pre.map itemKind, by rw [conversation_spoken, hp, List.map_append]⟩

theorem spoken_send (k : SendKind) (ch : Chan) (d : Bytes) (r : SendRes) (h : Hist) : spoken (.send k ch d r :: h) = .send k (chanKind ch) d r :: spoken h := rfl

/-- **C56 on Windows.** A client with credentials sends a mail on Windows only after the login was completed on the same channel, under the conditions of `C56_mail_only_after_login_partial`. -/
theorem C84_login_first_partial (e : Env) (w : WinCalls) (kind : Kind) (name : Bytes) (port : Nat) (cs : List Call) (hf : ∀ c ∈ cs, CallFits c) (m : Message) (hm : MessageFits m)
    (hn : NulFree m) (rs : List CallRes) (t u : St) (code : Int) (h1 : Gen.runCalls (windows w) cs e (newClient kind name port) = (.ok rs, t))
    (h2 : Gen.sendMail (windows w) m e t = (.ok code, u)) (c : Credential) (hc : t.client.credential = some c) (hmod : Modest c) (hcon : t.client.isConnected = false) :
    ∃ evs opening rest, u.hist = t.hist ++ evs ∧ spoken evs = opening ++ rest ∧ (∀ e ∈ opening, isMail e = false) ∧ contents opening = [] ∧
      (rest = [] ∨ ReplyIn opening 0 ∨ (t.client.kind = .opportunistic ∧ ∀ d ∈ commands opening, d = b!"ehlo localhost\r\n") ∨
        ∃ ch, ∃ d ∈ senderForms m.from, ∃ r rest', rest = .send .cmd ch d r :: rest' ∧ EndsWithLogin ch c opening) := by
  obtain ⟨e', rs', t', code', u', h3, h4, -, -, hv, -, hx⟩ := C84_each_mail_partial e w kind name port cs hf m hm rs t u code h1 h2
  obtain ⟨opening, evs, h5, h6, h7, h8⟩ := C56_mail_only_after_login_partial e' m hn t' c (hv.settings.credential ▸ hc) hmod (hv.connected ▸ hcon)
  rw [h4] at h5
  obtain ⟨evs0, h9, h10⟩ := hx (opening ++ evs) (by rw [← List.append_assoc]; exact h5)
  refine ⟨evs0, spoken opening, spoken evs, h9, by rw [h10, spoken_append], isMail_spoken h6, by rw [contents_spoken, h7], ?_⟩
  rcases h8 with rfl | h | ⟨hk, h⟩ | ⟨ch, d, hd, r, rest, rfl, h⟩
  · exact .inl rfl
  · exact .inr (.inl (replyIn_spoken h))
  · exact .inr (.inr (.inl ⟨hv.settings.kind.trans hk, by rw [commands_spoken]; exact h⟩))
  · exact .inr (.inr (.inr ⟨chanKind ch, d, hd, r, spoken rest, spoken_send .., endsWithLogin_spoken h⟩))

/-! ### The greeting -/

theorem readsOf_spoken (h : Hist) : readsOf (spoken h) = (readsOf h).map fun p => (chanKind p.1, p.2) := by
  unfold readsOf spoken
  rw [List.filterMap_filterMap, List.map_filterMap]
  congr 1
  funext x
  cases x <;> rfl

theorem mute_spoken {h : Hist} (hm : Mute h) : Mute (spoken h) := ⟨by rw [readsOf_spoken, hm.1]; rfl, quiet_spoken hm.2⟩

theorem onePiece_chanKind {ch : Chan} {l : List RecvRes} (h : OnePiece ch l) : OnePiece (chanKind ch) l := by
  cases ch <;> exact h

theorem oneReply_spoken {ch : Chan} {code : Int} {h : Hist} (hr : OneReply ch code h) : OneReply (chanKind ch) code (spoken h) := by
  obtain ⟨h1, h2, waiting, piece, h3, h4, h5⟩ := hr
  refine ⟨quiet_spoken h1, by rw [heard_spoken]; exact h2, waiting, piece, ?_, h4, onePiece_chanKind h5⟩
  rw [readsOf_spoken, h3, List.map_map]
  rfl

theorem spoken_flatten (l : List Hist) : spoken l.flatten = (l.map spoken).flatten := by
  induction l with
  | nil => rfl
  | cons x l ih => rw [List.flatten_cons, spoken_append, ih]; rfl

theorem ehloAccepted_spoken {ch : Chan} {h : Hist} (he : EhloAccepted ch h) : EhloAccepted (chanKind ch) (spoken h) := by
  obtain ⟨n, parts, h1, h2, rfl⟩ := he
  refine ⟨n, parts.map spoken, by simpa using h1, ?_, by rw [spoken_send, spoken_flatten]⟩
  intro p hp
  obtain ⟨q, hq, rfl⟩ := List.mem_map.mp hp
  exact oneReply_spoken (h2 q hq)

theorem speaksNext_spoken {h : Hist} (hs : SpeaksNext h) : SpeaksNext (spoken h) := by
  rcases hs with rfl | ⟨e, es, rfl, hi⟩
  · exact .inl rfl
  · right
    cases e <;> first | exact hi.elim | exact ⟨_, _, rfl, trivial⟩

theorem upgraded_spoken {fd : Int} {h : Hist} (hu : Upgraded fd h) : Upgraded fd (spoken h) := by
  obtain ⟨n, reply, neg, hello, rest, id, fd', rfl, h1, h2, h3, h4⟩ := hu
  refine ⟨n, spoken reply, spoken neg, spoken hello, spoken rest, 0, fd', ?_, oneReply_spoken h1, mute_spoken h2, ehloAccepted_spoken h3, speaksNext_spoken h4⟩
  rw [spoken_send]
  simp only [spoken_append]
  rfl

theorem welcomed_spoken {c c' : Client} (hk : c.kind = c'.kind) (hb : c.bio = none → c'.bio = none) {h : Hist} (hw : Welcomed c' h) : Welcomed c (spoken h) := by
  obtain ⟨pre, greeting, hello, rest, ch, ch', rfl, h1, h2, h3, h4, h5⟩ := hw
  refine ⟨spoken pre, spoken greeting, spoken hello, spoken rest, chanKind ch, chanKind ch', by simp only [spoken_append], mute_spoken h1, oneReply_spoken h2, ehloAccepted_spoken h3,
    speaksNext_spoken h4, ?_⟩
  rw [hk]
  split at h5
  · obtain ⟨fd, rfl, rfl⟩ := h5
    exact ⟨fd, rfl, rfl⟩
  · obtain ⟨id, fd, rfl, rfl⟩ := h5
    exact ⟨0, fd, rfl, rfl⟩
  · obtain ⟨fd, rfl, h6, h7⟩ := h5
    refine ⟨fd, rfl, fun hb' => by rw [h6 (hb hb')]; rfl, ?_⟩
    rcases h7 with rfl | h7
    · exact .inl rfl
    · exact .inr (upgraded_spoken h7)

/-- **C77 on Windows.** Without a session, nothing of a mail is sent on Windows before the server said 220 and answered the EHLO with 250, under the conditions of `C77_welcomed_partial`. -/
theorem C84_welcomed_partial (e : Env) (w : WinCalls) (kind : Kind) (name : Bytes) (port : Nat) (cs : List Call) (hf : ∀ c ∈ cs, CallFits c) (m : Message) (hm : MessageFits m)
    (hn : NulFree m) (rs : List CallRes) (t u : St) (code : Int) (h1 : Gen.runCalls (windows w) cs e (newClient kind name port) = (.ok rs, t))
    (h2 : Gen.sendMail (windows w) m e t = (.ok code, u)) (hcon : t.client.isConnected = false) :
    ∃ evs opening rest, u.hist = t.hist ++ evs ∧ spoken evs = opening ++ rest ∧ (∀ e ∈ opening, isMail e = false) ∧ contents opening = [] ∧
      (rest = [] ∨ ReplyIn opening 0 ∨ (Welcomed t.client opening ∧ ∃ ch, ∃ d ∈ senderForms m.from, ∃ r rest', rest = .send .cmd ch d r :: rest')) := by
  obtain ⟨e', rs', t', code', u', h3, h4, -, -, hv, -, hx⟩ := C84_each_mail_partial e w kind name port cs hf m hm rs t u code h1 h2
  obtain ⟨opening, evs, h5, h6, h7, h8⟩ := C77_welcomed_partial e' m hn t' (hv.connected ▸ hcon)
  rw [h4] at h5
  obtain ⟨evs0, h9, h10⟩ := hx (opening ++ evs) (by rw [← List.append_assoc]; exact h5)
  refine ⟨evs0, spoken opening, spoken evs, h9, by rw [h10, spoken_append], isMail_spoken h6, by rw [contents_spoken, h7], ?_⟩
  rcases h8 with rfl | h | ⟨h, ch, d, hd, r, rest, rfl⟩
  · exact .inl rfl
  · exact .inr (.inl (replyIn_spoken h))
  · exact .inr (.inr ⟨welcomed_spoken hv.settings.kind hv.tls.mp h, chanKind ch, d, hd, r, spoken rest, spoken_send ..⟩)

/-- Credentials of the example. -/
def joeOnWindows : Credential := { username := b!"joe", password := b!"pw", method := .implicit }

theorem joeOnWindows_fits : LoginFits joeOnWindows where
  plain := by show _ < _; decide +kernel
  username := by show _ < _; decide +kernel
  password := by show _ < _; decide +kernel
  xoauth2 := by show _ < _; decide +kernel

/-- A login and a mail on Windows: the hypotheses of the theorems above are met, and the commands are these. -/
example : CallFits (.setCredentials joeOnWindows) ∧ MessageFits mail ∧ Modest joeOnWindows ∧
    (let env := scripted ([.data b!"220 hi\r\n"] ++ clear [b!"250-AUTH PLAIN\r\n250 ok\r\n", b!"235 ok\r\n", b!"250 ok\r\n", b!"250 ok\r\n", b!"354 go\r\n", b!"250 ok\r\n"])
     let t := Gen.runCalls (windows fineCalls) [.setCredentials joeOnWindows] env (newClient .smtp b!"mail.org" 25)
     let u := Gen.sendMail (windows fineCalls) mail env t.2
     (t.1, t.2.client.isConnected, u.1, (commands u.2.hist).take 3)) =
      (.ok [.done], false, .ok 0, [b!"ehlo localhost\r\n", b!"AUTH PLAIN AGpvZQBwdw==\r\n", b!"MAIL FROM: <me@here.org>\r\n"]) :=
  ⟨joeOnWindows_fits, mail_fits, ⟨by decide, by decide, by decide⟩, by decide +kernel⟩

end Verif.Props
