import Verif.Proofs.Bcc
import Verif.Spec.Script
/-!
# C32: blind copies are not disclosed
-/
namespace Verif.Props
open Verif Verif.Model Verif.Spec

/-- **C32.** A client with any past sends, in the same state, one of two messages that differ in their blind copies only. Both transactions come to DATA
over a connection, and from there on the world gives the same answers. Then everything that happens from DATA on is the same event for event (the
header, the body, the end mark, the answers, QUIT) and so is the result. -/
theorem C32_same_from_data (env : Env) (k : Kind) (cs : List Call) (m m' : Message) (hb : SameButBcc m m') (h h' : Hist) :
    let s := (runCalls cs env (fresh k)).2
    (sendMail m env s).2.hist = s.hist ++ h → (sendMail m' env s).2.hist = s.hist ++ h' → LiveData h → LiveData h' →
    AlikeFrom env (s.hist ++ beforeData h) (s.hist ++ beforeData h') →
    fromData h = fromData h' ∧ (sendMail m env s).1 = (sendMail m' env s).1 := by
  intro s e e' hd hd' ha
  have hl : LogInv s := (Proofs.runCalls_steps (env := env) (R := fun s s' => LogInv s → LogInv s') cs).state (fresh k) fun l e => by cases e
  exact Proofs.same_from_data hb s hl e e' hd hd' ha

/-- **C32.** Everything `sendMail` sends could have been sent for the same message without blind copies, except for RCPT TO commands with the
addresses of the blind copies. In particular the header lines and the body do not depend on the blind copies. -/
theorem C32_only_in_rcpt (env : Env) (s : St) (m : Message) (hm : NulFree m) :
    ∃ evs, (sendMail m env s).2.hist = s.hist ++ evs ∧ ∀ k c d r, .send k c d r ∈ evs →
      Speech s.client.credential (withoutBcc m) k d ∨
        (k = .cmd ∧ ∃ a ∈ elems m.bcc, d = b!"RCPT TO: <" ++ a.email ++ b!">\r\n") := by
  obtain ⟨_, evs, h, ha⟩ := (Proofs.sendMail_saying (env := env) hm).state s
  refine ⟨evs, h, fun k c d r he => ?_⟩
  have hsp : Speech s.client.credential m k d := by
    have := ha _ he
    cases k <;> first | exact this | exact (show d = b!"QUIT\r\n" from this) ▸ .quit
  cases hsp with
  | opening h => exact .inl (.opening h)
  | auth h1 h2 h3 => exact .inl (.auth h1 h2 h3)
  | sender h => exact .inl (.sender h)
  | recipient h =>
    rename_i a
    simp only [recipients, List.mem_append] at h
    rcases h with h | h
    · exact .inl (.recipient (by simp only [recipients, List.mem_append]; exact .inl h))
    · exact .inr ⟨rfl, a, h, rfl⟩
  | data => exact .inl .data
  | header h => exact .inl (.header h)
  | lastHeader h => exact .inl (.lastHeader h)
  | body h h' => exact .inl (.body h h')
  | endMark => exact .inl .endMark
  | quit => exact .inl .quit

/-! ### A case with two different lists -/

/-- How far a polite server is: the first letters of the last text it got and how often it was asked for the answer. -/
def politeStep : Bytes × Nat → Ev → Bytes × Nat
  | _, .send _ _ d _ => (d.take 4, 0)
  | (d, n), .recv _ _ => (d, n + 1)
  | x, _ => x

/-- A server that looks at the last command only. -/
def polite : Env :=
  { scripted [] with
    recv := fun h _ =>
      match h.foldl politeStep ([], 0) with
      | (d, 0) => .data (if d = [] then b!"220 hi" else if d = b!"DATA" then b!"354 go\r\n" else b!"250 OK\r\n")
      | _ => .err
    send := fun _ _ d => .sent d.length }

def mailTo (bcc : List MessageAddress) : Message :=
  Message.new { email := b!"me@here.org", displayName := [] } (some [{ email := b!"you@there.org", displayName := b!"You" }]) 1
    (some b!"Hello") (some b!"Body") none 0 (some bcc) bcc.length none 0 mimePlain

def twoBcc : Message := mailTo [{ email := b!"one@there.org", displayName := [] }, { email := b!"two@there.org", displayName := b!"Two" }]
def otherBcc : Message := mailTo [{ email := b!"third@there.org", displayName := [] }]

theorem polite_alike {h h' : Hist} (h1 : h.foldl politeStep ([], 0) = h'.foldl politeStep ([], 0)) (h2 : ∀ fd, nonblocking fd h = nonblocking fd h') :
    AlikeFrom polite h h' where
  fcntlGet := fun _ _ => rfl
  fcntlSet := fun _ _ _ => rfl
  send := fun _ _ _ => rfl
  recv := by
    intro e c
    simp only [polite, List.foldl_append, h1]
  readFile := fun _ _ => rfl
  tlsErr := fun _ => rfl
  blocking := h2

theorem nonblocking_other {h : Hist} (fd : Int) (hf : fd ≠ 5) (hs : ∀ e ∈ h, (match e with | .fcntlSet f _ _ => decide (f = 5) | _ => true) = true) :
    nonblocking fd h = false := by
  unfold nonblocking
  have : ∀ (l : Hist), (∀ e ∈ l, (match e with | .fcntlSet f _ _ => decide (f = 5) | _ => true) = true) →
      l.foldl (fun b e => match e with
        | .fcntlSet fd' nb .ok => if fd' = fd then nb else b
        | .socket (.val v) => if (v : Int) = fd then false else b
        | _ => b) false = false := by
    intro l
    induction l with
    | nil => exact fun _ => rfl
    | cons e l ih =>
      intro hl
      have h1 := hl e (by simp)
      have h2 := ih fun e he => hl e (by simp [he])
      rw [List.foldl_cons]
      split
      · have : ‹Int› = 5 := by simpa using h1
        subst this
        rw [if_neg (Ne.symm hf)]
        exact h2
      · rw [ite_self]; exact h2
      · exact h2
  exact this h hs

def runTwo : Res Int × St := sendMail twoBcc polite (fresh .smtp)
def runOther : Res Int × St := sendMail otherBcc polite (fresh .smtp)

-- the hypotheses of C32_same_from_data, for two lists of different lengths; both runs succeed
example :
    SameButBcc twoBcc otherBcc ∧ twoBcc.bcc ≠ otherBcc.bcc ∧ runTwo.1 = .ok 0 ∧ LiveData runTwo.2.hist ∧ LiveData runOther.2.hist ∧
    AlikeFrom polite (beforeData runTwo.2.hist) (beforeData runOther.2.hist) := by
  refine ⟨rfl, by decide +kernel, by decide +kernel, ?_, ?_, polite_alike (by decide +kernel) fun fd => ?_⟩
  · exact ⟨.raw 5, b!"DATA\r\n", .sent 6, (fromData runTwo.2.hist).tail, by decide +kernel, by decide⟩
  · exact ⟨.raw 5, b!"DATA\r\n", .sent 6, (fromData runOther.2.hist).tail, by decide +kernel, by decide⟩
  · by_cases hf : fd = 5
    · subst hf
      decide +kernel
    · rw [nonblocking_other fd hf (by decide +kernel), nonblocking_other fd hf (by decide +kernel)]

-- a message with blind copies for C32_only_in_rcpt
example : NulFree twoBcc ∧ (elems twoBcc.bcc).length = 2 := by
  refine ⟨⟨by decide +kernel, by decide +kernel, by decide +kernel, by decide +kernel, by decide +kernel⟩, by decide +kernel⟩

-- and they are told to the server
example : ∃ c r, .send .cmd c b!"RCPT TO: <two@there.org>\r\n" r ∈ runTwo.2.hist := ⟨.raw 5, .sent 26, by decide +kernel⟩

end Verif.Props
