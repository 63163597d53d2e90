import Verif.Proofs.Off
import Verif.Spec.Script
/-!
# C47: what a failed `sendMail` leaves behind
-/
namespace Verif.Props
open Verif Verif.Model Verif.Spec

variable {env : Env}

/-- The call opens a new connection before anything else. -/
def StartsAnew (h h' : Hist) : Prop := ∃ r evs, h' = h ++ .socket r :: evs

/-- A call that changes a setting. -/
def IsSetting : Call → Prop
  | .sendMail _ => False
  | _ => True

theorem initializePOSIX_socket (s : St) :
    Proofs.wp env initializePOSIX (fun _ s' => StartsAnew s.hist s'.hist) (fun _ s' => StartsAnew s.hist s'.hist) s := by
  unfold initializePOSIX sysSocket
  rw [Proofs.wp_bind, Proofs.wp_ask]
  generalize env.socket s.hist = r
  have key : ∀ {m : M Int}, Proofs.Steps env Proofs.Ext m → Proofs.wp env m (fun _ s' => StartsAnew s.hist s'.hist)
      (fun _ s' => StartsAnew s.hist s'.hist) { s with hist := s.hist ++ [.socket r] } := fun h =>
    Proofs.wp_mono (h.run _) (fun _ s' ⟨e, he⟩ => ⟨r, e, by rw [he]; simp⟩) (fun _ s' ⟨e, he⟩ => ⟨r, e, by rw [he]; simp⟩)
  cases r with
  | err e => exact key (.bind (.modify fun _ => Proofs.Ext.same rfl) fun _ => .bind (Proofs.logErrno_steps _) fun _ => .pure _)
  | val fd =>
    refine key (.bind (.modify fun _ => Proofs.Ext.same rfl) fun _ => ?_)
    steps [Proofs.sysResolve_steps, Proofs.setNonBlocking_steps, Proofs.addLog_steps, Proofs.connectPOSIX_steps]

theorem startsAnew_then {a b c : St} (h : StartsAnew a.hist b.hist) (h' : Proofs.Ext b c) : StartsAnew a.hist c.hist := by
  obtain ⟨r, e, h⟩ := h
  obtain ⟨e', h'⟩ := h'
  exact ⟨r, e ++ e', by rw [h', h]; simp⟩

theorem sendMail_socket (m : Message) (s : St) (h : s.client.isConnected = false) :
    Proofs.wp env (sendMail m) (fun _ s' => StartsAnew s.hist s'.hist) (fun _ s' => StartsAnew s.hist s'.hist) s := by
  have key : ∀ {α : Type} {n : M α} {s1 : St}, Proofs.Steps env Proofs.Ext n → StartsAnew s.hist s1.hist →
      Proofs.wp env n (fun _ s' => StartsAnew s.hist s'.hist) (fun _ s' => StartsAnew s.hist s'.hist) s1 := fun hn h1 =>
    Proofs.wp_mono (hn.run _) (fun _ s' h' => startsAnew_then h1 h') (fun _ s' h' => startsAnew_then h1 h')
  unfold sendMail
  rw [Proofs.wp_bind, Proofs.wp_gets, h, Proofs.wp_ite]
  refine ⟨nofun, fun _ => ?_⟩
  rw [Proofs.wp_bind]
  have he : Proofs.wp env establish (fun _ s' => StartsAnew s.hist s'.hist) (fun _ s' => StartsAnew s.hist s'.hist) s := by
    unfold establish initializeSession
    rw [Proofs.wp_bind, Proofs.wp_bind, Proofs.wp_modifyMem]
    refine Proofs.wp_mono (initializePOSIX_socket _) (fun c s1 h1 => key ?_ h1) (fun _ _ h1 => h1)
    refine .ite (.pure _) ?_
    unfold establishGreeted establishOpportunistic establishForced upgradeToSecureConnection getServerSecureIdentification
      sendServerIdentification setKeepUsingBase
    have : ∀ d e t, Proofs.Steps env Proofs.Ext (sendRawFb d e t) := fun d e t => Proofs.sendRawFb_steps (fun _ _ _ => .one) e t
    steps [Proofs.addLog_steps, Proofs.checkServerGreetings_steps, Proofs.identify_steps', Proofs.startTLSNegotiation_steps,
      Proofs.authenticateIfNeeded_steps, this, Proofs.Steps.modify]
    exact Proofs.Ext.same rfl
  refine Proofs.wp_mono he (fun c s1 h1 => key ?_ h1) (fun _ _ h1 => h1)
  exact .ite (.pure _) (Proofs.sendMailConnected_steps m)

theorem setting_same (c : Call) (hc : IsSetting c) (s : St) :
    Proofs.post env (doCall c) (fun _ s' => s'.client.isConnected = s.client.isConnected) s := by
  unfold doCall Proofs.post
  rw [Proofs.wp_bind, Proofs.wp_emit]
  cases c with
  | sendMail m => exact hc.elim
  | setServerName p =>
    simp only [setServerName]
    split <;> first | trivial | rfl
  | _ => rfl

theorem settings_same (cs : List Call) (hc : ∀ c ∈ cs, IsSetting c) (s : St) :
    Proofs.post env (runCalls cs) (fun _ s' => s'.client.isConnected = s.client.isConnected) s := by
  induction cs generalizing s with
  | nil => rfl
  | cons c cs ih =>
    unfold runCalls Proofs.post
    rw [Proofs.wp_bind]
    refine Proofs.wp_mono (setting_same c (hc c (List.mem_cons_self ..)) s) (fun r s1 h1 => ?_) (fun _ _ _ => trivial)
    rw [Proofs.wp_bind]
    exact Proofs.wp_mono (ih (fun c h => hc c (List.mem_cons_of_mem _ h)) s1) (fun _ _ h2 => h2.trans h1) (fun _ _ _ => trivial)

/-- **C47, partial.** A `sendMail` that returned an error, in whatever state and environment, leaves the client ready for a fresh
start unless the error was the code of a reply of the server: whatever settings are changed in between, the next `sendMail`, whether
it returns or not, first opens a new connection. What is missing: the property is false for errors reported by the server, see
`C47_old_transaction_reused`. -/
theorem C47_fresh_start_partial (m m2 : Message) (settings : List Call) (hs : ∀ c ∈ settings, IsSetting c) (s s1 s2 : St) (code : Int)
    (rs : List CallRes) (hr : sendMail m env s = (.ok code, s1)) (hne : code ≠ 0) (h2 : runCalls settings env s1 = (.ok rs, s2)) :
    (∃ d evs, s1.hist = s.hist ++ evs ∧ Answered evs d code) ∨ StartsAnew s2.hist (sendMail m2 env s2).2.hist := by
  have hw : Proofs.post env (sendMail m) _ s := Proofs.sendMail_why m s
  have h0 : Proofs.post env (runCalls settings) _ s1 := settings_same settings hs s1
  unfold Proofs.post Proofs.wp at hw h0
  rw [hr] at hw
  rw [h2] at h0
  rcases hw with h | h | ⟨d, evs, h⟩
  · exact absurd h hne
  · right
    have := sendMail_socket (env := env) m2 s2 (h0.trans h)
    unfold Proofs.wp at this
    split at this <;> rename_i e <;> rw [e] <;> exact this
  · exact .inl ⟨d, evs, h⟩

/-- The server of the next theorem: it refuses the recipient of the first message. -/
def refusing : Env := scripted ([.data b!"220 hi\r\n"] ++ clear [b!"250 ok\r\n", b!"250 ok\r\n", b!"550 no\r\n",
  b!"503 nested MAIL command\r\n", b!"503 no\r\n", b!"503 no\r\n"])

/-- **C47 is false in general.** Outside batch mode the server answers RCPT TO with 550; the next `sendMail` opens no connection: it
sends MAIL FROM into the unfinished transaction on the old one. -/
theorem C47_old_transaction_reused :
    let s1 := (sendMail mail refusing (fresh .smtp)).2
    let s2 := (sendMail mail refusing s1).2
    s1.client.batch = false ∧ (sendMail mail refusing (fresh .smtp)).1 = .ok 550 ∧
    (s2.hist.drop s1.hist.length).head? = some (.send .cmd (.raw 5) b!"MAIL FROM: <me@here.org>\r\n" (.sent 26)) ∧
    ∀ r, .socket r ∉ s2.hist.drop s1.hist.length := by
  refine ⟨by decide +kernel, by decide +kernel, by decide +kernel, fun r h => ?_⟩
  have : ((sendMail mail refusing (sendMail mail refusing (fresh .smtp)).2).2.hist.drop
    (sendMail mail refusing (fresh .smtp)).2.hist.length).all (fun | .socket _ => false | _ => true) = true := by decide +kernel
  have := List.all_eq_true.mp this _ h
  cases this

/-- Non-vacuity of `C47_fresh_start_partial`: the reply to MAIL FROM does not come, a setting is changed, and the second call connects
again (and fails at once: the server does not greet). -/
example :
    let env := scripted ([.data b!"220 hi\r\n"] ++ clear [b!"250 ok\r\n"])
    let s1 := (sendMail mail env (fresh .smtp)).2
    let s2 := (runCalls [.setCommandTimeout 3] env s1).2
    (sendMail mail env (fresh .smtp)).1 = .ok (-86) ∧ s2.client.timeout = 3 ∧
    (s2.hist.drop s1.hist.length) = [.call (.setCommandTimeout 3)] ∧
    ((sendMail mail env s2).2.hist.drop s2.hist.length).head? = some (.socket (.val 5)) := by
  decide +kernel

end Verif.Props
