import Verif.Proofs.Reader
import Verif.Props.Receiver
/-!
# C94: a mail program shows the sender, the recipients and the subject that were meant
-/
namespace Verif.Props
open Verif Verif.Model Verif.Spec

/-- Display name and address. -/
def person (a : MessageAddress) : Bytes × Bytes := (a.displayName, a.email)

/-- What a mail program shows of the header section. -/
structure ShownAs (m : Message) (hs : List Bytes) : Prop where
  sender : namedIn b!"From" hs = [person m.from]
  to : namedIn b!"To" hs = (elems m.to).map person
  cc : namedIn b!"Cc" hs = (elems m.cc).map person
  bcc : namedIn b!"Bcc" hs = []
  subject : (bodies b!"Subject" hs).map trimmed = [trimmed m.subject]

/-- A sender or recipient whose display name and address need no quoting. -/
def Quotable (a : MessageAddress) : Prop := PlainText a.displayName ∧ PlainText a.email

theorem shownAs_meant (m : Message) (h : ∀ a ∈ m.from :: (elems m.to ++ elems m.cc), Quotable a) : ShownAs m (meantHeader m) := by
  have hf : mailboxes (32 :: List.intercalate b!", " ([m.from].map shown)) = [m.from].map person := Proofs.mailboxes_list [m.from] (by simp) (fun b hb => by rw [List.mem_singleton.mp hb]; exact h m.from (by simp))
  have ht : elems m.to ≠ [] → mailboxes (32 :: List.intercalate b!", " ((elems m.to).map shown)) = (elems m.to).map person := fun hne => Proofs.mailboxes_list (elems m.to) hne fun a ha => h a (by simp [ha])
  have hc : elems m.cc ≠ [] → mailboxes (32 :: List.intercalate b!", " ((elems m.cc).map shown)) = (elems m.cc).map person := fun hne => Proofs.mailboxes_list (elems m.cc) hne fun a ha => h a (by simp [ha])
  have k : ∀ n, bodies n (meantHeader m) = ((fields m).filter fun f => decide (EqIgnoringCase f.1 n)).map fun f => 32 :: f.2 :=
    Proofs.bodies_fields m
  have d : ∀ n, bodies n (meantHeader m) =
      (if EqIgnoringCase b!"From" n then [32 :: shown m.from] else []) ++
      (if EqIgnoringCase b!"To" n ∧ elems m.to ≠ [] then [32 :: List.intercalate b!", " ((elems m.to).map shown)] else []) ++
      (if EqIgnoringCase b!"Cc" n ∧ elems m.cc ≠ [] then [32 :: List.intercalate b!", " ((elems m.cc).map shown)] else []) ++
      (if EqIgnoringCase b!"Subject" n then [32 :: m.subject] else []) ++
      (if EqIgnoringCase b!"Content-Type" n then [32 :: b!"multipart/related; boundary=sep"] else []) := by
    intro n
    rw [k n]
    unfold fields
    by_cases c1 : elems m.to = [] <;> by_cases c2 : elems m.cc = [] <;>
    by_cases d1 : EqIgnoringCase b!"From" n <;> by_cases d2 : EqIgnoringCase b!"To" n <;> by_cases d3 : EqIgnoringCase b!"Cc" n <;>
    by_cases d4 : EqIgnoringCase b!"Subject" n <;> by_cases d5 : EqIgnoringCase b!"Content-Type" n <;>
      simp [c1, c2, d1, d2, d3, d4, d5]
  constructor
  · unfold namedIn
    rw [d, if_pos (by decide), if_neg (fun c => absurd c.1 (by decide)), if_neg (fun c => absurd c.1 (by decide)), if_neg (by decide),
      if_neg (by decide)]
    simpa [List.intercalate] using hf
  · unfold namedIn
    rw [d, if_neg (by decide), if_neg (c := EqIgnoringCase b!"Cc" _ ∧ _) (fun c => absurd c.1 (by decide)),
      if_neg (c := EqIgnoringCase b!"Subject" _) (by decide), if_neg (c := EqIgnoringCase b!"Content-Type" _) (by decide)]
    by_cases c : elems m.to = []
    · rw [if_neg (fun x => x.2 c), c]; rfl
    · rw [if_pos ⟨by decide, c⟩]
      simpa using ht c
  · unfold namedIn
    rw [d, if_neg (by decide), if_neg (c := EqIgnoringCase b!"To" _ ∧ _) (fun c => absurd c.1 (by decide)),
      if_neg (c := EqIgnoringCase b!"Subject" _) (by decide), if_neg (c := EqIgnoringCase b!"Content-Type" _) (by decide)]
    by_cases c : elems m.cc = []
    · rw [if_neg (fun x => x.2 c), c]; rfl
    · rw [if_pos ⟨by decide, c⟩]
      simpa using hc c
  · unfold namedIn
    rw [d, if_neg (by decide), if_neg (fun c => absurd c.1 (by decide)), if_neg (fun c => absurd c.1 (by decide)), if_neg (by decide),
      if_neg (by decide)]
    rfl
  · rw [d, if_neg (by decide), if_neg (fun c => absurd c.1 (by decide)), if_neg (fun c => absurd c.1 (by decide)), if_pos (by decide),
      if_neg (by decide)]
    simp [Proofs.trimmed_cons]

/-- **C94, partial.** After a successful `sendMail` a mail program that reads the header section the server got finds as sender the sender of the
message, as recipients in To and Cc those of the message, each with display name and address and in order, nobody in Bcc, and one subject, the one
of the message (up to blanks around it). The subject and the display names must be without CRLF (see C35), and display names and addresses must need
no quoting: this is what is missing, and `C94_name_with_comma` and `C94_other_sender` show that the statement is false there. -/
theorem C94_shown_as_meant_partial (env : Env) (m : Message) (hm : NulFree m) (s s' : St) (h : sendMail m env s = (.ok 0, s'))
    (hs : CrlfFree m.subject) (ha : ∀ a ∈ m.from :: (elems m.to ++ elems m.cc), CrlfFree a.displayName ∧ Made a)
    (hq : ∀ a ∈ m.from :: (elems m.to ++ elems m.cc), Quotable a) :
    ∃ opening evs, s'.hist = s.hist ++ opening ++ evs ∧ contents opening = [] ∧ (Flawed evs ∨ ∃ bytes,
      AfterData (conversation evs) bytes ∧ ShownAs m (headerSection (lines bytes))) := by
  obtain ⟨opening, evs, h1, h2, h3⟩ := C35_no_added_lines_partial env m hm s s' h hs ha
  refine ⟨opening, evs, h1, h2, h3.imp id ?_⟩
  rintro ⟨bytes, hb, he⟩
  exact ⟨bytes, hb, he ▸ shownAs_meant m hq⟩

/-- The hypotheses are met by a message with recipients of all kinds, and this is what is shown. -/
example : (∀ a ∈ bigMail.from :: (elems bigMail.to ++ elems bigMail.cc), Quotable a) ∧
    namedIn b!"To" (meantHeader bigMail) = [(b!"You", b!"you@there.org"), ([], b!"two@there.org")] := by
  unfold Quotable
  decide +kernel

/-- A recipient whose name is written with a comma. -/
def commaMail : Message :=
  Message.new { email := b!"me@here.org", displayName := [] } (some [{ email := b!"john@doe.com", displayName := b!"Doe, John" }]) 1
    (some b!"Hello") (some b!"Body") none 0 none 0 none 0 mimePlain

/-- **C94, refuted** for names with a comma: the mail program shows two recipients, one of them with an address nobody gave. -/
theorem C94_name_with_comma : MessageAddress.new (some b!"john@doe.com") (some b!"Doe, John") = .ok ⟨b!"john@doe.com", b!"Doe, John"⟩ ∧
    (let r := sendMail commaMail (scripted acceptingServer) (fresh .smtp)
     (r.1, namedIn b!"To" (headerSection (contentLines r.2.hist)))) = (.ok 0, [([], b!"Doe"), (b!"John", b!"john@doe.com")]) := by
  constructor
  · have hv : isEmailAddressValid (cstr b!"john@doe.com") = true := by decide +kernel
    rw [Proofs.new_eq, (Proofs.valid_trim hv).1, if_neg (Proofs.valid_trim hv).2]
    simp only [if_neg (Proofs.valid_trim hv).2, if_pos hv]
    rfl
  · decide +kernel

/-- A sender whose display name holds another address. -/
def posingMail : Message :=
  Message.new { email := b!"me@here.org", displayName := b!"Boss <boss@corp.com>" } (some [{ email := b!"you@there.org", displayName := [] }]) 1
    (some b!"Hello") (some b!"Body") none 0 none 0 none 0 mimePlain

/-- **C94, refuted** for names with angle brackets: the mail program shows the address in the display name as the sender's, while the server was told
another one. -/
theorem C94_other_sender : MessageAddress.new (some b!"me@here.org") (some b!"Boss <boss@corp.com>") = .ok posingMail.from ∧
    (let r := sendMail posingMail (scripted acceptingServer) (fresh .smtp)
     (r.1, namedIn b!"From" (headerSection (contentLines r.2.hist)))) = (.ok 0, [(b!"Boss", b!"boss@corp.com")]) := by
  constructor
  · have hv : isEmailAddressValid (cstr b!"me@here.org") = true := by decide +kernel
    rw [Proofs.new_eq, (Proofs.valid_trim hv).1, if_neg (Proofs.valid_trim hv).2]
    simp only [if_neg (Proofs.valid_trim hv).2, if_pos hv]
    rfl
  · decide +kernel

end Verif.Props
