import Verif.Proofs.SevenBit
import Verif.Props.WinScript
/-!
# C96: only characters a server takes without an extension
-/
namespace Verif.Props
open Verif Verif.Model Verif.Spec Verif.Proofs

/-- **C96, partial.** When the texts of the message are of US-ASCII, everything a call of `sendMail` sends or tries consists of octets between 1 and 127, in every
run and whatever the files, the user name and the password contain. Missing: other texts (`C96_eight_bit_unasked`). -/
theorem C96_seven_bit_partial (env : Env) (m : Message) (hm : AsciiMessage m) (s : St) :
    ∃ evs, (sendMail m env s).2.hist = s.hist ++ evs ∧ ∀ k ch d r, .send k ch d r ∈ evs → SevenBit d := by
  obtain ⟨_, evs, h1, h2⟩ := (Proofs.sendMail_seven (env := env) hm).state s
  refine ⟨evs, h1, fun k ch d r hd => ?_⟩
  have := h2 _ hd
  cases k with
  | cmd => exact this
  | content => exact this
  | quit =>
    rw [show d = quitCmd from this]
    unfold SevenBit
    decide

/-- The same on Windows. -/
theorem C96_windows_partial (e : Env) (w : WinCalls) (kind : Kind) (name : Bytes) (port : Nat) (cs : List Call) (hf : ∀ c ∈ cs, CallFits c) (m : Message) (hm : MessageFits m)
    (ha : AsciiMessage m) (rs : List CallRes) (t u : St) (code : Int) (h1 : Gen.runCalls (windows w) cs e (newClient kind name port) = (.ok rs, t))
    (h2 : Gen.sendMail (windows w) m e t = (.ok code, u)) :
    ∃ evs, u.hist = t.hist ++ evs ∧ ∀ k ch d r, .send k ch d r ∈ evs → SevenBit d := by
  obtain ⟨e', rs', t', code', u', h3, h4, -, -, hv, -, hx⟩ := C84_each_mail_partial e w kind name port cs hf m hm rs t u code h1 h2
  obtain ⟨evs, h5, h6⟩ := C96_seven_bit_partial e' m ha t'
  rw [h4] at h5
  obtain ⟨evs0, h9, h10⟩ := hx evs h5
  refine ⟨evs0, h9, fun k c d r hmem => ?_⟩
  have := mem_spoken hmem (f := .send k (chanKind c) d r) rfl
  rw [h10] at this
  obtain ⟨x, hx, hs⟩ := List.mem_filterMap.mp this
  obtain ⟨c', rfl, -⟩ := spokenEv_send hs
  exact h6 k c' d r hx

/-- A message whose body is one letter outside US-ASCII, in UTF-8 (ä). -/
def umlautMail : Message := { mail with body := [195, 164] }

/-- The text occurs in a text. -/
def occursIn (p : Bytes) : Bytes → Bool
  | [] => p.isEmpty
  | c :: t => p.isPrefixOf (c :: t) || occursIn p t

theorem occursIn_of_infix {p t : Bytes} (h : p <:+: t) : occursIn p t = true := by
  induction t with
  | nil =>
    have := List.eq_nil_of_infix_nil h
    subst this
    rfl
  | cons c t ih =>
    unfold occursIn
    rcases List.infix_cons_iff.mp h with h | h
    · rw [List.isPrefixOf_iff_prefix.mpr h, Bool.true_or]
    · rw [ih h, Bool.or_true]

/-- A server without extensions. -/
def plainServer : Env := scripted ([.data b!"220 hi\r\n"] ++ clear [b!"250 ok\r\n", b!"250 ok\r\n", b!"250 ok\r\n", b!"354 go\r\n", b!"250 ok\r\n"])

/-- No extension for other octets is offered, as a test. -/
def plainWords : Ev → Bool
  | .recv _ (.data d) => !(occursIn b!"8BITMIME" d || occursIn b!"SMTPUTF8" d)
  | _ => true

theorem no_offer {h : Hist} (hp : h.all plainWords = true) : ¬ OffersEightBit h := by
  rintro ⟨c, d, hd, ho⟩
  have := List.all_eq_true.mp hp _ hd
  rcases ho with h | h <;> simp [plainWords, occursIn_of_infix h] at this

/-- Something with an octet above 127 is sent. -/
def eightBitSent : Ev → Bool
  | .send _ _ d _ => d.any fun b => decide (128 ≤ b.toNat)
  | _ => false

theorem eightBit_sent {h : Hist} (hp : h.any eightBitSent = true) : ∃ k ch d r, .send k ch d r ∈ h ∧ ¬ SevenBit d := by
  obtain ⟨e, he, h⟩ := List.any_eq_true.mp hp
  match e, he, h with
  | .send k ch d r, he, h =>
    obtain ⟨b, hb, hl⟩ := List.any_eq_true.mp h
    refine ⟨k, ch, d, r, he, fun hs => ?_⟩
    have := (hs b hb).2
    simp only [decide_eq_true_eq] at hl
    omega

/-- **C96, refuted** for other texts: the library neither encodes the text nor looks whether the server offers 8BITMIME or SMTPUTF8, and says 0. -/
theorem C96_eight_bit_unasked : ∃ (env : Env) (m : Message), NulFree m ∧ (sendMail m env (fresh .smtp)).1 = .ok 0 ∧
    ¬ OffersEightBit (sendMail m env (fresh .smtp)).2.hist ∧
    ∃ k ch d r, .send k ch d r ∈ (sendMail m env (fresh .smtp)).2.hist ∧ ¬ SevenBit d :=
  ⟨plainServer, umlautMail, ⟨by decide, by decide, by decide, by decide, by decide⟩, by decide +kernel, no_offer (by decide +kernel), eightBit_sent (by decide +kernel)⟩

/-! Non-vacuity: a message of US-ASCII with an attachment whose file has octets above 127, sent after a login with a password outside US-ASCII. -/

/-- A server that offers a login, and files with octets above 127 only. -/
def loginServer : Env :=
  { scripted ([.data b!"220 hi\r\n"] ++ clear [b!"250-AUTH PLAIN\r\n250 ok\r\n", b!"235 ok\r\n", b!"250 ok\r\n", b!"250 ok\r\n", b!"250 ok\r\n", b!"250 ok\r\n", b!"250 ok\r\n",
      b!"354 go\r\n", b!"250 ok\r\n"]) with readFile := fun _ _ => some [128, 200, 255, 254] }

/-- A client with a password outside US-ASCII. -/
def umlautClient : St := { fresh .smtp with client := { (fresh .smtp).client with credential := some { username := b!"joe", password := [195, 164] } } }

example : AsciiMessage bigMail :=
  ⟨by unfold Ascii; decide, by unfold Ascii; decide, by unfold Ascii; decide, by unfold Ascii; decide, by unfold Ascii; decide⟩

example : (sendMail bigMail loginServer umlautClient).1 = .ok 0 ∧
    ((sendMail bigMail loginServer umlautClient).2.hist.any fun | .readFile _ (some c) => c == [128, 200, 255, 254] | _ => false) = true := by decide +kernel

example : MessageFits windowsMail ∧ AsciiMessage windowsMail :=
  ⟨windowsMail_fits, ⟨by unfold Ascii; decide, by unfold Ascii; decide, by unfold Ascii; decide, by unfold Ascii; decide, by unfold Ascii; decide⟩⟩

end Verif.Props
