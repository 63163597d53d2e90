import Verif.Proofs.TlsFreed
import Verif.Props.Sockets
import Verif.Props.Cooperation
/-!
# C75: TLS connections are freed
-/
namespace Verif.Props
open Verif Verif.Model Verif.Spec Verif.Proofs

theorem care_start {B : Prop} (k : Kind) (name : Bytes) (port : Nat) : Care B { client := Client.init k name port, hist := [] } := by
  intro a b r h; simp at h

/-- From the invariant to the statement. -/
theorem care_end {B : Prop} {s : St} (h : Care B s) (hn : s.client.bio = none) (hf : FreesOnce s.hist) {n : Nat} (hm : TlsMade s.hist n) :
    timesFreed n s.hist = 1 ∨ (B ∧ TlsAskedAfter s.hist n) := by
  obtain ⟨a, b, r, h1, h2, rfl⟩ := hm
  rcases h a b r h1 h2 with h | ⟨x, hx, _⟩ | ⟨hB, r', h⟩
  · exact .inl (freed_exactly hf (by rw [h1]; simp [h]))
  · rw [hn] at hx; cases hx
  · exact .inr ⟨hB, r', by rw [h1]; rw [List.drop_append, List.drop_eq_nil_of_le (by omega)]; simpa using h⟩

/-- C75, the provable part: when a client that can encrypt is destroyed, after any history of API calls against any server, every
TLS connection it made was freed exactly once, or a further one was asked for afterwards. Missing from the full claim: a connection
left behind by a failed call is overwritten by the next attempt and never freed (`C75_overwritten`). -/
theorem C75_freed_partial {env : Env} (hv : FreshSockets env) {k : Kind} (hk : k ≠ .smtp) (name : Bytes) (port : Nat) (cs : List Call)
    (rs : List CallRes) (hr : (life cs env { client := Client.init k name port, hist := [] }).1 = .ok rs) :
    ∀ n, TlsMade (life cs env { client := Client.init k name port, hist := [] }).2.hist n →
      timesFreed n (life cs env { client := Client.init k name port, hist := [] }).2.hist = 1 ∨
      TlsAskedAfter (life cs env { client := Client.init k name port, hist := [] }).2.hist n := by
  intro n hn
  have hf := (life_mine hv k name port cs).frees
  have hw := life_care (env := env) (B := True) cs _ (care_start k name port) (.inl trivial) hk
  unfold wp at hw
  split at hw
  · next heq =>
    rw [heq] at hn hf ⊢
    have := hw (.inl trivial)
    exact (care_end this.1 this.2 hf hn).imp id (·.2)
  · next heq => rw [heq] at hr; cases hr

/-- When every mail was sent with success, every TLS connection was freed exactly once. -/
theorem C75_successful_lives {env : Env} (hv : FreshSockets env) {k : Kind} (hk : k ≠ .smtp) (name : Bytes) (port : Nat) (cs : List Call)
    (rs : List CallRes) (hr : (life cs env { client := Client.init k name port, hist := [] }).1 = .ok rs)
    (hok : ∀ code, .returned code ∈ rs → code = 0) :
    ∀ n, TlsMade (life cs env { client := Client.init k name port, hist := [] }).2.hist n →
      timesFreed n (life cs env { client := Client.init k name port, hist := [] }).2.hist = 1 := by
  intro n hn
  have hf := (life_mine hv k name port cs).frees
  have hw := life_care (env := env) (B := False) cs _ (care_start k name port) (.inr (.inr rfl)) hk
  unfold wp at hw
  split at hw
  · next heq =>
    rw [heq] at hn hf hr ⊢
    injection hr with hr
    subst hr
    have := hw (.inr hok)
    exact (care_end this.1 this.2 hf hn).elim id (·.1.elim)
  · next heq => rw [heq] at hr; cases hr

theorem tlsMade_of {h : Hist} {n : Nat} {r : Int} (h1 : h[n]? = some (.tls .bioNew r)) (hr : r ≠ 0) : TlsMade h n := by
  obtain ⟨hl, h1⟩ := List.getElem?_eq_some_iff.mp h1
  refine ⟨h.take n, h.drop (n + 1), r, ?_, hr, by rw [List.length_take]; omega⟩
  rw [← h1, List.getElem_cons_drop, List.take_append_drop]

/-- Non-vacuity of `C75_successful_lives`: two mails over two TLS connections, each made, used and freed. -/
example : (let r := life [.sendMail mail, .sendMail mail] (numbered (obliging true)) (fresh .opportunistic)
    (r.1, r.2.hist[30]?, r.2.hist[94]?, timesFreed 30 r.2.hist, timesFreed 94 r.2.hist)) =
    (.ok [.returned 0, .returned 0], some (.tls .bioNew 1), some (.tls .bioNew 1), 1, 1) := by decide +kernel

/-- The server that accepts everything but logins. -/
def noLogins (n : Nat) (d : Bytes) : Option Bytes := if d.take 4 = b!"AUTH" then some b!"535" else acceptance n d

/-- A program that tries twice to send with a password the server does not like. -/
def wrongPassword : List Call :=
  [.setCredentials { username := b!"joe", password := b!"pw", method := .plain }, .sendMail mail, .sendMail mail]

/-- C75 is false: the connection on which the login was refused is kept, the next attempt overwrites it, and nobody frees it. -/
theorem C75_overwritten : FreshSockets (numbered (obliging true noLogins)) ∧
    (let r := life wrongPassword (numbered (obliging true noLogins)) (fresh .forced)
     r.1 = .ok [.done, .returned 535, .returned 535] ∧ TlsMade r.2.hist 10 ∧ timesFreed 10 r.2.hist = 0 ∧
     TlsMade r.2.hist 36 ∧ timesFreed 36 r.2.hist = 1) := by
  refine ⟨numbered_fresh _, ?_, tlsMade_of (r := 1) ?_ (by decide), ?_, tlsMade_of (r := 1) ?_ (by decide), ?_⟩ <;> decide +kernel

end Verif.Props
