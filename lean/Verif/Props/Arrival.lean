import Verif.Proofs.Said
import Verif.Spec.Waiting
import Verif.Spec.Script
/-!
# C53: replies that arrive in time
-/
namespace Verif.Props
open Verif Verif.Model Verif.Spec

variable {env : Env}

theorem sysRecv_answer {ch : Chan} {s : St} {r : RecvRes} (h : answer env ch s.hist = r) (hr : r ≠ .never) :
    sysRecv ch env s = (.ok r, Proofs.St.snoc s (.recv ch r)) := by
  unfold sysRecv
  rw [Proofs.bind_run]
  have : (M.ask (fun e h => normRecv (nonblocking ch.fd h) (e.recv h ch)) (.recv ch)) env s = (.ok r, Proofs.St.snoc s (.recv ch r)) := by
    unfold answer at h
    unfold M.ask Proofs.St.snoc
    dsimp only
    rw [h]
  rw [this]
  dsimp only
  rw [if_neg hr]
  rfl

/-- Data that arrive before the timeout are the result of the waiting loop. -/
theorem waitLoop_arrives {ch : Chan} {d : Bytes} {h : Hist} {n : Nat} (ha : ArrivesAfter env ch d h n) (t : Nat) (ht : n < t)
    {read : M RecvRes} (s : St) (hr : ∀ s' : St, s'.client = s.client → read env s' = sysRecv ch env s') (hs : s.hist = h) :
    ∃ evs, waitLoop read t env s = (.ok (some d), { s with hist := s.hist ++ evs }) := by
  induction ha generalizing t s with
  | now ha =>
    subst hs
    obtain ⟨t, rfl⟩ : ∃ t', t = t' + 1 := ⟨t - 1, by omega⟩
    refine ⟨[.recv ch (.data d)], ?_⟩
    unfold waitLoop
    rw [Proofs.bind_run, hr s rfl, sysRecv_answer ha (by simp)]
    rfl
  | @later h n r ha hr' hl ih =>
    subst hs
    obtain ⟨t, rfl⟩ : ∃ t', t = t' + 1 := ⟨t - 1, by omega⟩
    obtain ⟨evs, ih⟩ := ih t (by omega) { s with hist := s.hist ++ [.recv ch r, .sleep] } (fun s' h => hr s' h) rfl
    refine ⟨[.recv ch r, .sleep] ++ evs, ?_⟩
    unfold waitLoop
    rw [Proofs.bind_run, hr s rfl, sysRecv_answer ha (by rcases hr' with rfl | rfl <;> simp)]
    have : (do sysSleep; waitLoop read t) env (Proofs.St.snoc s (.recv ch r)) =
        waitLoop read t env { s with hist := s.hist ++ [.recv ch r, .sleep] } := by
      rw [Proofs.bind_run]
      show waitLoop read t env { s with hist := (s.hist ++ [.recv ch r]) ++ [.sleep] } = _
      rw [List.append_assoc]; rfl
    rcases hr' with rfl | rfl
    all_goals
      dsimp only
      rw [this, ih]
      simp

/-- Data that arrive exactly at the timeout are read and thrown away. -/
theorem waitLoop_late {ch : Chan} {d : Bytes} {h : Hist} {n : Nat} (ha : ArrivesAfter env ch d h n)
    {read : M RecvRes} (s : St) (hr : ∀ s' : St, s'.client = s.client → read env s' = sysRecv ch env s') (hs : s.hist = h) :
    ∃ evs, waitLoop read n env s = (.ok none, { s with hist := s.hist ++ evs ++ [.recv ch (.data d)] }) := by
  induction ha generalizing s with
  | now ha =>
    subst hs
    refine ⟨[], ?_⟩
    unfold waitLoop
    rw [Proofs.bind_run, hr s rfl, sysRecv_answer ha (by simp)]
    simp [Proofs.pure_run, Proofs.St.snoc]
  | @later h n r ha hr' hl ih =>
    subst hs
    obtain ⟨evs, ih⟩ := ih { s with hist := s.hist ++ [.recv ch r, .sleep] } (fun s' h => hr s' h) rfl
    refine ⟨[.recv ch r, .sleep] ++ evs, ?_⟩
    unfold waitLoop
    rw [Proofs.bind_run, hr s rfl, sysRecv_answer ha (by rcases hr' with rfl | rfl <;> simp)]
    have : (do sysSleep; waitLoop read n) env (Proofs.St.snoc s (.recv ch r)) =
        waitLoop read n env { s with hist := s.hist ++ [.recv ch r, .sleep] } := by
      rw [Proofs.bind_run]
      show waitLoop read n env { s with hist := (s.hist ++ [.recv ch r]) ++ [.sleep] } = _
      rw [List.append_assoc]; rfl
    rcases hr' with rfl | rfl
    all_goals
      dsimp only
      rw [this, ih]
      simp

theorem bioRead_chan {b : Bio} {s : St} (hb : s.client.bio = some b) (s' : St) (h : s'.client = s.client) :
    bioRead env s' = sysRecv (.tls b.id b.fd) env s' := by
  unfold bioRead
  rw [Proofs.bind_run, Proofs.gets_run, h, hb]

theorem addLog_run {s : St} (h : Proofs.HasLog s) (i p : Bytes) : ∃ l op, Proofs.LogOk l ∧
    addLog i p env s = (.ok (), { s with client := { s.client with log := some l }, mem := s.mem ++ [op] }) := by
  obtain ⟨l, hl, ho⟩ := h
  obtain ⟨l', e, ho', _⟩ := Proofs.log_add_ok ho i p
  refine ⟨l', .log (l.grows i p) l'.content, ho', ?_⟩
  unfold addLog
  rw [Proofs.bind_run, Proofs.gets_run, hl]
  dsimp only
  rw [e]
  rfl

theorem extract_of_code {t : Bytes} {code : Int} (h0 : cstr t = t) (h : ReplyCode t code) : extractReturnCode (some t) = code := by
  unfold extractReturnCode
  dsimp only
  rw [h0, if_pos h.1, Proofs.stoi_of_number h.2]
  rfl

theorem bufferText_eq (d : Bytes) : bufferText d = upToNul d.dropLast := rfl
theorem bufferText_cstr (d : Bytes) : cstr (bufferText d) = bufferText d := Proofs.cstr_cstr _

/-- **C53, partial, reply over TLS.** When the data arrive in one read after fewer seconds than the timeout, they become the last
response of the server (without their last byte, which is the LF of the reply), and the code returned is the code in them. Missing: data
that arrive exactly at the timeout (refuted below). -/
theorem C53_tls_reply_in_time_partial (env : Env) (s : St) (b : Bio) (d : Bytes) (n : Nat) (hb : s.client.bio = some b)
    (hlog : Proofs.HasLog s) (ha : ArrivesAfter env (.tls b.id b.fd) d s.hist n) (hn : n < s.client.timeout) :
    ∃ code s', getTlsReply env s = (.ok code, s') ∧ s'.client.lastResponse = some (upToNul d.dropLast) ∧
      ∀ c, ReplyCode (upToNul d.dropLast) c → code = c := by
  obtain ⟨evs, hw⟩ := waitLoop_arrives ha s.client.timeout hn s (bioRead_chan hb) rfl
  obtain ⟨l, hl, hlog'⟩ := hlog
  obtain ⟨l', op, _, hadd⟩ := addLog_run (env := env)
    (s := { client := { s.client with lastResponse := some (cstr (bufferText d)) }, hist := s.hist ++ evs, mem := s.mem ++ [.response (cstr (bufferText d))] }) ⟨l, hl, hlog'⟩ (bufferText d) b!"s"
  have run : getTlsReply env s = (.ok (extractReturnCode (some (bufferText d))),
      { client := { s.client with lastResponse := some (cstr (bufferText d)), log := some l' }, hist := s.hist ++ evs,
        mem := s.mem ++ [.response (cstr (bufferText d))] ++ [op] }) := by
    unfold getTlsReply
    rw [Proofs.bind_run, Proofs.gets_run]
    dsimp only
    rw [Proofs.bind_run, hw]
    dsimp only
    rw [Proofs.bind_run]
    show (do addLog (bufferText d) b!"s"; pure (extractReturnCode (some (bufferText d)))) env
      { client := { s.client with lastResponse := some (cstr (bufferText d)) }, hist := s.hist ++ evs, mem := s.mem ++ [SessionOp.response (cstr (bufferText d))] } = _
    rw [Proofs.bind_run, hadd]
    rfl
  refine ⟨_, _, run, ?_, fun c hc => extract_of_code (bufferText_cstr d) hc⟩
  show some (cstr (bufferText d)) = some (upToNul d.dropLast)
  rw [bufferText_cstr, bufferText_eq]

/-- The channel the greeting is read from. -/
def greetingChan (c : Client) : Option Chan :=
  if c.kind = .forced then c.bio.map fun b => .tls b.id b.fd else some (.raw c.sock)

/-- **C53, partial, greeting.** When the greeting arrives in one read after fewer seconds than the timeout, its code is the result. -/
theorem C53_greeting_in_time_partial (env : Env) (s : St) (ch : Chan) (d : Bytes) (n : Nat) (hch : greetingChan s.client = some ch)
    (hlog : Proofs.HasLog s) (ha : ArrivesAfter env ch d s.hist n) (hn : n < s.client.timeout) :
    ∃ code s', checkServerGreetings env s = (.ok code, s') ∧ ∀ c, ReplyCode (upToNul d.dropLast) c → code = c := by
  have fin : ∀ s1 : St, Proofs.HasLog s1 → ∃ s', greetingResult (some d) env s1 = (.ok (extractReturnCode (some (bufferText d))), s') := by
    intro s1 h1
    obtain ⟨l, op, hl, e⟩ := addLog_run (env := env) h1 (bufferText d) b!"s"
    unfold greetingResult
    dsimp only
    rw [Proofs.bind_run, e]
    dsimp only
    by_cases hc : extractReturnCode (some (bufferText d)) = 220
    · rw [if_pos hc]
      obtain ⟨l', _, _, e'⟩ := addLog_run (env := env) (s := { s1 with client := { s1.client with log := some l }, mem := s1.mem ++ [op] }) ⟨l, rfl, hl⟩ b!"Connected!" b!"c"
      rw [Proofs.bind_run, e']
      exact ⟨_, rfl⟩
    · rw [if_neg hc]
      exact ⟨_, rfl⟩
  unfold checkServerGreetings
  rw [Proofs.bind_run, Proofs.gets_run]
  dsimp only
  unfold greetingChan at hch
  by_cases hk : s.client.kind = .forced
  · rw [if_pos hk] at hch
    cases hb : s.client.bio with
    | none => rw [hb] at hch; simp at hch
    | some b =>
      rw [hb] at hch
      simp only [Option.map_some, Option.some.injEq] at hch
      subst hch
      obtain ⟨evs, hw⟩ := waitLoop_arrives ha s.client.timeout hn s (bioRead_chan hb) rfl
      rw [if_pos (by simp [hk]), Proofs.bind_run, Proofs.gets_run]
      dsimp only
      rw [Proofs.bind_run, hw]
      obtain ⟨s', e⟩ := fin { s with hist := s.hist ++ evs } hlog
      exact ⟨_, s', e, fun c hc => extract_of_code (bufferText_cstr d) hc⟩
  · rw [if_neg hk] at hch
    simp only [Option.some.injEq] at hch
    subst hch
    obtain ⟨evs, hw⟩ := waitLoop_arrives (read := sysRecv (.raw s.client.sock)) ha s.client.timeout hn s (fun _ _ => rfl) rfl
    rw [if_neg (by simp [hk]), Proofs.bind_run, Proofs.gets_run]
    dsimp only
    rw [Proofs.bind_run, Proofs.gets_run]
    dsimp only
    rw [Proofs.bind_run, hw]
    obtain ⟨s', e⟩ := fin { s with hist := s.hist ++ evs } hlog
    exact ⟨_, s', e, fun c hc => extract_of_code (bufferText_cstr d) hc⟩

/-- **C53, refuted**, for every timeout and every data: a TLS reply that arrives exactly at the timeout is read from the connection and thrown
away; the result is the timeout. -/
theorem C53_reply_at_timeout_lost (env : Env) (s : St) (b : Bio) (d : Bytes) (hb : s.client.bio = some b)
    (ha : ArrivesAfter env (.tls b.id b.fd) d s.hist s.client.timeout) :
    ∃ evs, getTlsReply env s = (.ok (-1), { s with hist := s.hist ++ evs ++ [.recv (.tls b.id b.fd) (.data d)] }) := by
  obtain ⟨evs, hw⟩ := waitLoop_late ha s (bioRead_chan hb) rfl
  refine ⟨evs, ?_⟩
  unfold getTlsReply
  rw [Proofs.bind_run, Proofs.gets_run]
  dsimp only
  rw [Proofs.bind_run, hw]
  rfl

/-- **C53, refuted** for the greeting in clear: with a timeout of 2 seconds, a greeting that arrives after 2 seconds is read, but the
result is the connection timeout -3. -/
theorem C53_greeting_at_timeout_lost :
    (let env := scripted [.err, .err, .data b!"220 hi\r\n"]
     let c := { Client.init .smtp b!"mail.org" 25 with timeout := 2 }
     let r := sendMail mail env { client := c, hist := [] }
     (r.1, heard r.2.hist)) = (.ok (-3), b!"220 hi\r\n") := by decide +kernel

/-- Non-vacuity: data that arrive after two seconds, in a world as assumed. -/
example : ArrivesAfter (scripted [.err, .eof, .data b!"250 ok\r\n"]) (.tls 7 5) b!"250 ok\r\n" [] 2 :=
  .later (r := .err) (by decide) (.inr rfl) (.later (r := .eof) (by decide) (.inl rfl) (.now (by decide)))

/-- … and the client in it. -/
example : (getTlsReply (scripted [.err, .eof, .data b!"250 ok\r\n"])
    { client := { Client.init .forced b!"mail.org" 25 with bio := some { id := 7, fd := 5 }, log := some .fresh }, hist := [] }).1 = .ok 250 := by
  decide +kernel

end Verif.Props
