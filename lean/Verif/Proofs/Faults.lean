import Verif.Proofs.Said
import Verif.Proofs.Calls
import Verif.Props.StringUtils
import Verif.Spec.Faults
/-!
# Where a run can meet undefined behaviour
-/
namespace Verif.Proofs
open Verif Verif.Model Verif.Spec

variable {α β : Type} {env : Env} {b : Bool}

/-- The last response consists of bytes the server sent. -/
def Echo (s : St) : Prop := ∀ t, s.client.lastResponse = some t → ∀ c ∈ t, Received s.hist c

theorem received_append {h e : Hist} {c : UInt8} (x : Received h c) : Received (h ++ e) c := by
  obtain ⟨ch, d, h1, h2⟩ := x
  exact ⟨ch, d, List.mem_append_left _ h1, h2⟩

/-- There is a log in order, and the last response is from the server; with the flag, there is a last response. -/
structure Sane (b : Bool) (s : St) : Prop where
  log : HasLog s
  resp : b = true → s.client.lastResponse ≠ none
  echo : Echo s

theorem Sane.snoc {s : St} {e : Ev} (h : Sane b s) : Sane b (St.snoc s e) :=
  ⟨h.log, h.resp, fun t ht c hc => received_append (h.echo t ht c hc)⟩

theorem Sane.change {s : St} {k : Client} (h : Sane b s) (hl : k.log = s.client.log) (hr : k.lastResponse = s.client.lastResponse) :
    Sane b { s with client := k } := by
  obtain ⟨⟨l, h1, h2⟩, h3, h4⟩ := h
  refine ⟨⟨l, hl.trans h1, h2⟩, fun e => ?_, ?_⟩
  · show k.lastResponse ≠ none
    rw [hr]; exact h3 e
  · intro t ht
    exact h4 t (hr.symm.trans ht)

theorem Sane.relog {s : St} {l : Log} {m : List SessionOp} (h : Sane b s) (ho : LogOk l) : Sane b { s with client := { s.client with log := some l }, mem := m } :=
  ⟨⟨l, rfl, ho⟩, h.resp, h.echo⟩

/-- If the run stopped with undefined behaviour, then for one of the known causes. -/
def Blamed (e : Stop) (s : St) : Prop := ∀ u, e = .ub u → Fault s u

/-- Started sane, the program stays so, and undefined behaviour has one of the known causes. -/
structure Minds (env : Env) (b : Bool) (m : M α) : Prop where
  run : ∀ s, Sane b s → wp env m (fun _ => Sane b) Blamed s

namespace Minds

theorem pure (a : α) : Minds env b (Pure.pure a : M α) := ⟨fun _ h => h⟩
theorem gets (f : Client → α) : Minds env b (M.gets f) := ⟨fun _ h => h⟩
theorem env' (f : Env → α) : Minds env b (M.env f) := ⟨fun _ h => h⟩
theorem ask' (f : Env → Hist → α) : Minds env b (M.ask' f) := ⟨fun _ h => h⟩
theorem histLength : Minds env b M.histLength := ⟨fun _ h => h⟩
theorem emit (e : Ev) : Minds env b (M.emit e) := ⟨fun _ h => h.snoc⟩
theorem ask (f : Env → Hist → α) (ev : α → Ev) : Minds env b (M.ask f ev) := ⟨fun _ h => h.snoc⟩
theorem plain {f : Client → Client} (hl : ∀ c, (f c).log = c.log) (hr : ∀ c, (f c).lastResponse = c.lastResponse) :
    Minds env b (M.modify f) := ⟨fun _ h => h.change (hl _) (hr _)⟩
theorem hang : Minds env b (M.stop .hang : M α) := ⟨fun _ _ => nofun⟩
theorem fuel : Minds env b (M.stop .fuel : M α) := ⟨fun _ _ => nofun⟩
theorem stack : Minds env b (M.stop .stackOverflow : M α) := ⟨fun _ _ => nofun⟩
theorem bind {m : M β} {f : β → M α} (hm : Minds env b m) (hf : ∀ x, Minds env b (f x)) : Minds env b (m >>= f) := by
  constructor
  intro s hs
  rw [wp_bind]
  exact wp_mono (hm.run s hs) (fun x s' h => (hf x).run s' h) (fun _ _ h => h)
theorem ite {c : Prop} [Decidable c] {x y : M α} (hx : Minds env b x) (hy : Minds env b y) : Minds env b (if c then x else y) := by
  split <;> assumption

end Minds

/-- Follow the structure of the program. -/
syntax "minds" "[" term,* "]" : tactic
macro_rules
  | `(tactic| minds [$ts,*]) => do
    let alts ← ts.getElems.mapM fun t => `(tacticSeq| with_reducible apply $t)
    `(tactic| repeat' (first
        $[| $alts:tacticSeq]*
        | assumption
        | with_reducible apply Minds.pure | with_reducible apply Minds.gets
        | with_reducible apply Minds.env' | with_reducible apply Minds.ask' | with_reducible apply Minds.histLength
        | with_reducible apply Minds.emit | with_reducible apply Minds.ask | with_reducible apply Minds.hang
        | with_reducible apply Minds.fuel | with_reducible apply Minds.stack
        | (with_reducible refine Minds.plain (fun _ => rfl) (fun _ => rfl))
        | with_reducible apply Minds.bind | with_reducible apply Minds.ite
        | intro _
        | split))

/-! ### Small steps -/

theorem addLog_minds (i p : Bytes) : Minds env b (addLog i p) :=
  ⟨fun _ h => wp_addLog h.log (fun _ _ ho => h.relog ho)⟩

theorem logErrno_minds (e : Int) : Minds env b (logErrno e) := by
  unfold logErrno setErrNo; minds [addLog_minds]

theorem logIfErr_minds (r : SysRes) : Minds env b (logIfErr r) := by
  unfold logIfErr; minds [logErrno_minds]

theorem setBlocking_minds : Minds env b setBlocking := by
  unfold setBlocking sysFcntlGet sysFcntlSet; minds [logErrno_minds]

theorem setNonBlocking_minds : Minds env b setNonBlocking := by
  unfold setNonBlocking sysFcntlGet sysFcntlSet; minds [logErrno_minds, logIfErr_minds]

theorem sysSend_minds (k c d) : Minds env b (sysSend k c d) := by
  unfold sysSend; minds []

theorem sysRecv_minds (c) : Minds env b (sysRecv c) := by
  unfold sysRecv; minds []

/-! ### Sending and cleaning up -/

section
variable {f : M Unit}

theorem sendRawWith_minds (h : Minds env b f) (k cmd err) : Minds env b (sendRawWith f k cmd err) := by
  unfold sendRawWith setErrNo; minds [sysSend_minds]

theorem sendBioWith_minds (h : Minds env b f) (k cmd err) : Minds env b (sendBioWith f k cmd err) := by
  unfold sendBioWith setErrNo; minds [sysSend_minds]

theorem sendPtrWith_minds (h : Minds env b f) (k cmd err) : Minds env b (sendPtrWith f k cmd err) := by
  unfold sendPtrWith; minds [sendRawWith_minds, sendBioWith_minds]

theorem sendQuitWith_minds (h : Minds env b f) : Minds env b (sendQuitWith f) := by
  unfold sendQuitWith; minds [addLog_minds, sendPtrWith_minds]
end

theorem closeSession_minds : Minds env b closeSession := by
  unfold closeSession freeTls closeSocket emitBioFree sysClose; minds []

theorem cleanupN_minds (n : Nat) : Minds env b (cleanupN n) := by
  induction n with
  | zero => exact Minds.stack
  | succ n ih => unfold cleanupN; minds [sendQuitWith_minds, closeSession_minds]

theorem cleanup_minds : Minds env b cleanup := by
  unfold cleanup; minds [cleanupN_minds]

theorem sendRaw_minds (k cmd err) : Minds env b (sendRaw k cmd err) := sendRawWith_minds cleanup_minds _ _ _
theorem sendPtr_minds (k cmd err) : Minds env b (sendPtr k cmd err) := sendPtrWith_minds cleanup_minds _ _ _
theorem sendQuit_minds : Minds env b sendQuit := sendQuitWith_minds cleanup_minds

/-! ### Receiving -/

theorem normRecv_length {nb : Bool} {r : RecvRes} {d : Bytes} (h : normRecv nb r = .data d) : d.length ≤ 1024 := by
  cases r with
  | data x =>
    simp only [normRecv] at h
    split at h
    · cases h
    · cases h
      rw [List.length_take]
      omega
  | eof => cases h
  | err => cases h
  | never => cases nb <;> simp [normRecv] at h

/-- Bytes from the server. -/
def FromServer (s : St) (t : Bytes) : Prop := ∀ c ∈ t, Received s.hist c

theorem mem_cstr {c : UInt8} {t : Bytes} (h : c ∈ cstr t) : c ∈ t := (List.takeWhile_sublist _).subset h

theorem FromServer.cstr {s : St} {t : Bytes} (h : FromServer s t) : FromServer s (cstr t) := fun c hc => h c (mem_cstr hc)

theorem FromServer.snoc {s : St} {t : Bytes} {e : Ev} (h : FromServer s t) : FromServer (St.snoc s e) t :=
  fun c hc => received_append (h c hc)

theorem FromServer.steps {s s' : St} {t : Bytes} (h : FromServer s t) (hp : Ext s s') : FromServer s' t := by
  obtain ⟨e, he⟩ := hp
  intro c hc
  rw [he]
  exact received_append (h c hc)

theorem rawReplyLoop_sane (n wait acc got) (s : St) (hs : Sane b s) (ha : FromServer s acc) :
    wp env (rawReplyLoop n wait acc got) (fun r s' => Sane b s' ∧ FromServer s' r.2.1) Blamed s := by
  induction n generalizing wait acc got s with
  | zero => exact nofun
  | succ n ih =>
    unfold rawReplyLoop
    rw [wp_bind, wp_gets, wp_bind, wp_gets]
    unfold sysRecv
    rw [wp_bind, wp_bind, wp_ask, wp_ite]
    refine ⟨fun _ => nofun, fun _ => ?_⟩
    generalize hr : normRecv (nonblocking (Chan.raw s.client.sock).fd s.hist) (env.recv s.hist (.raw s.client.sock)) = r
    rw [wp_pure]
    have hs' : Sane b (St.snoc s (.recv (.raw s.client.sock) r)) := hs.snoc
    have ha' : FromServer (St.snoc s (.recv (.raw s.client.sock) r)) acc := ha.snoc
    change wp env _ _ _ (St.snoc s (.recv (.raw s.client.sock) r))
    have other : ∀ r', wp env (if r' = RecvRes.err ∧ got = true then pure (wait, acc, got)
        else do
          sysSleep
          if wait + 1 < s.client.timeout then rawReplyLoop n (wait + 1) acc got else pure (wait + 1, acc, got))
        (fun r s' => Sane b s' ∧ FromServer s' r.2.1) Blamed (St.snoc s (.recv (.raw s.client.sock) r)) := by
      intro r'
      rw [wp_ite]
      refine ⟨fun _ => ⟨hs', ha'⟩, fun _ => ?_⟩
      unfold sysSleep
      rw [wp_bind, wp_emit, wp_ite]
      exact ⟨fun _ => ih _ _ _ _ hs'.snoc ha'.snoc, fun _ => ⟨hs'.snoc, ha'.snoc⟩⟩
    cases r with
    | data d =>
      simp only
      have had : FromServer (St.snoc s (.recv (.raw s.client.sock) (.data d))) (acc ++ cstr d) := by
        intro c hc
        rcases List.mem_append.mp hc with hc | hc
        · exact ha' c hc
        · exact ⟨_, d, List.mem_append_right _ (List.mem_singleton.mpr rfl), mem_cstr hc⟩
      rw [wp_ite]
      refine ⟨fun hl u hu => ?_, fun _ => ?_⟩
      · cases hu
        exact .longRead s.client.sock d (by simp [St.snoc]) (Nat.le_antisymm (normRecv_length hr) hl)
      · rw [wp_ite]
        exact ⟨fun _ => ih _ _ _ _ hs' had, fun _ => ⟨hs', had⟩⟩
    | eof => exact other _
    | err => exact other _
    | never => exact other _

/-- With a result other than -1 there is a last response. -/
def Answered (b : Bool) (c : Int) (s : St) : Prop := Sane b s ∧ (c ≠ -1 → s.client.lastResponse ≠ none)

theorem keepResponse (t : Bytes) (code : Int) (s : St) (hs : Sane b s) (ht : FromServer s t) :
    wp env (do setLastServerResponse t; addLog t b!"s"; pure code) (Answered b) Blamed s := by
  unfold setLastServerResponse
  rw [wp_bind, wp_modifyMem, wp_bind]
  exact wp_addLog hs.log fun l _ ho => ⟨⟨⟨l, rfl, ho⟩, nofun, fun x hx c hc => by cases hx; exact ht.cstr c hc⟩, nofun⟩

theorem getRawReply_answered (s : St) (hs : Sane b s) : wp env getRawReply (Answered b) Blamed s := by
  unfold getRawReply
  rw [wp_bind]
  refine wp_mono (setNonBlocking_minds.run s hs) (fun _ s1 h1 => ?_) (fun _ _ h => h)
  rw [wp_bind, wp_env, wp_bind]
  refine wp_mono (rawReplyLoop_sane _ _ _ _ s1 h1 (fun c hc => by cases hc)) (fun r s2 h2 => ?_) (fun _ _ h => h)
  simp only
  rw [wp_bind]
  refine wp_mono (wp_and (setBlocking_minds.run s2 h2.1) (setBlocking_steps.run (R := Ext) s2)) (fun _ s3 h3 => ?_) (fun _ _ h => h.1)
  rw [wp_bind, wp_gets, wp_ite]
  exact ⟨fun _ => keepResponse _ _ s3 h3.1 (h2.2.steps h3.2), fun _ => ⟨h3.1, fun h => absurd rfl h⟩⟩

theorem bioRead_minds : Minds env b bioRead := by
  unfold bioRead; minds [sysRecv_minds]

theorem waitLoop_minds {read : M RecvRes} (h : Minds env b read) (n : Nat) : Minds env b (waitLoop read n) := by
  induction n with
  | zero => unfold waitLoop; minds []
  | succ n ih => unfold waitLoop sysSleep; minds []

/-- What a read gives comes from the server. -/
theorem bioRead_sane (s : St) (hs : Sane b s) :
    wp env bioRead (fun r s' => Sane b s' ∧ ∀ d, r = .data d → FromServer s' d) Blamed s := by
  unfold bioRead
  rw [wp_bind, wp_gets]
  cases s.client.bio with
  | none => exact ⟨hs, nofun⟩
  | some x =>
    simp only
    unfold sysRecv
    rw [wp_bind, wp_ask, wp_ite]
    refine ⟨fun _ => nofun, fun _ => ⟨hs.snoc, fun d hd c hc => ⟨.tls x.id x.fd, d, ?_, hc⟩⟩⟩
    rw [hd]
    simp

theorem waitLoop_sane (n : Nat) (s : St) (hs : Sane b s) :
    wp env (waitLoop bioRead n) (fun r s' => Sane b s' ∧ ∀ d, r = some d → FromServer s' d) Blamed s := by
  induction n generalizing s with
  | zero =>
    unfold waitLoop
    rw [wp_bind]
    exact wp_mono (bioRead_sane s hs) (fun _ _ h => ⟨h.1, nofun⟩) (fun _ _ h => h)
  | succ n ih =>
    unfold waitLoop
    rw [wp_bind]
    refine wp_mono (bioRead_sane s hs) (fun r s1 h1 => ?_) (fun _ _ h => h)
    have other : wp env (do sysSleep; waitLoop bioRead n) (fun r s' => Sane b s' ∧ ∀ d, r = some d → FromServer s' d) Blamed s1 := by
      unfold sysSleep
      rw [wp_bind, wp_emit]
      exact ih _ h1.1.snoc
    cases r with
    | data d => exact ⟨h1.1, fun d' e => by cases e; exact h1.2 d rfl⟩
    | eof => exact other
    | err => exact other
    | never => exact other

theorem getTlsReply_answered (s : St) (hs : Sane b s) : wp env getTlsReply (Answered b) Blamed s := by
  unfold getTlsReply
  rw [wp_bind, wp_gets, wp_bind]
  refine wp_mono (waitLoop_sane _ s hs) (fun r s1 h1 => ?_) (fun _ _ h => h)
  cases r with
  | none => exact ⟨h1.1, fun h => absurd rfl h⟩
  | some d => exact keepResponse _ _ s1 h1.1 fun c hc => h1.2 d rfl c (List.dropLast_subset _ (mem_cstr hc))

theorem getServerReply_answered (s : St) (hs : Sane b s) : wp env getServerReply (Answered b) Blamed s := by
  unfold getServerReply
  rw [wp_bind, wp_gets, wp_ite]
  exact ⟨fun _ => getRawReply_answered s hs, fun _ => getTlsReply_answered s hs⟩

/-! ### Commands with a reply -/

/-- With a result that is not one of the two error codes there is a last response. -/
def AnsweredBut (b : Bool) (err timeout c : Int) (s : St) : Prop :=
  Sane b s ∧ (c ≠ err → c ≠ timeout → s.client.lastResponse ≠ none)

theorem sendRawFb_answered (cmd err timeout) (s : St) (hs : Sane b s) :
    wp env (sendRawFb cmd err timeout) (AnsweredBut b err timeout) Blamed s := by
  unfold sendRawFb
  rw [wp_bind]
  refine wp_mono ((sendRaw_minds _ _ _).run s hs) (fun r s1 h1 => ?_) (fun _ _ h => h)
  rw [wp_ite]
  refine ⟨fun _ => ⟨h1, fun h => absurd rfl h⟩, fun _ => ?_⟩
  rw [wp_bind]
  refine wp_mono (getRawReply_answered s1 h1) (fun c s2 h2 => ?_) (fun _ _ h => h)
  rw [wp_ite]
  refine ⟨fun hc => ⟨h2.1, fun _ _ => h2.2 hc⟩, fun _ => ?_⟩
  rw [wp_bind]
  exact wp_mono (cleanup_minds.run s2 h2.1) (fun _ s3 h3 => ⟨h3, fun _ h => absurd rfl h⟩) (fun _ _ h => h)

theorem sendTlsFb_answered (cmd err timeout) (s : St) (hs : Sane b s) :
    wp env (sendTlsFb cmd err timeout) (AnsweredBut b err timeout) Blamed s := by
  unfold sendTlsFb
  rw [wp_bind]
  refine wp_mono ((sendBioWith_minds cleanup_minds _ _ _).run s hs) (fun r s1 h1 => ?_) (fun _ _ h => h)
  rw [wp_ite]
  refine ⟨fun _ => ⟨h1, fun h => absurd rfl h⟩, fun _ => ?_⟩
  rw [wp_bind]
  refine wp_mono (getTlsReply_answered s1 h1) (fun c s2 h2 => ?_) (fun _ _ h => h)
  rw [wp_ite]
  refine ⟨fun hc => ⟨h2.1, fun _ _ => h2.2 hc⟩, fun _ => ?_⟩
  rw [wp_bind]
  exact wp_mono (cleanup_minds.run s2 h2.1) (fun _ s3 h3 => ⟨h3, fun _ h => absurd rfl h⟩) (fun _ _ h => h)

theorem sendFb_answered (cmd err timeout) (s : St) (hs : Sane b s) :
    wp env (sendFb cmd err timeout) (AnsweredBut b err timeout) Blamed s := by
  unfold sendFb
  rw [wp_bind, wp_gets, wp_bind, wp_gets, wp_ite]
  exact ⟨fun _ => sendRawFb_answered _ _ _ s hs, fun _ => sendTlsFb_answered _ _ _ s hs⟩

theorem sendRawFb_minds (cmd err timeout) : Minds env b (sendRawFb cmd err timeout) :=
  ⟨fun s hs => wp_mono (sendRawFb_answered cmd err timeout s hs) (fun _ _ h => h.1) (fun _ _ h => h)⟩

theorem sendPtrFb_minds (cmd err timeout) : Minds env b (sendPtrFb cmd err timeout) := by
  unfold sendPtrFb
  exact Minds.bind (Minds.gets _) fun _ => Minds.ite (sendRawFb_minds _ _ _)
    ⟨fun s hs => wp_mono (sendFb_answered cmd err timeout s hs) (fun _ _ h => h.1) (fun _ _ h => h)⟩

/-! ### Opening the session -/

theorem connectPOSIX_minds (ip : Bytes) : Minds env b (connectPOSIX ip) := by
  constructor
  intro s hs
  unfold connectPOSIX sysConnect
  rw [wp_bind, wp_gets, wp_bind, wp_gets, wp_bind, wp_ask]
  generalize env.connect s.hist s.client.sock ⟨ip, s.client.port % 65536⟩ = r
  have hs' : Sane b (St.snoc s (.connect s.client.sock ⟨ip, s.client.port % 65536⟩ r)) := hs.snoc
  cases r with
  | ok => exact setBlocking_minds.run _ hs'
  | err e =>
    simp only
    rw [wp_ite]
    refine ⟨fun he => ?_, fun _ => (show Minds env b (do logErrno e; pure (-2 : Int)) by minds [logErrno_minds]).run _ hs'⟩
    subst he
    rw [wp_ite]
    refine ⟨fun hf u hu => ?_, fun _ => ?_⟩
    · cases hu
      exact .highDescriptor ⟨ip, s.client.port % 65536⟩ hf (by simp)
    · refine Minds.run ?_ _ hs'
      unfold sysSelect sysSockopt
      minds [logErrno_minds, setBlocking_minds]

theorem initializePOSIX_minds : Minds env b initializePOSIX := by
  unfold initializePOSIX sysSocket
  refine Minds.bind (Minds.ask _ _) fun r => ?_
  cases r with
  | err e => simp only; minds [logErrno_minds]
  | val fd =>
    simp only
    refine Minds.bind (Minds.plain (fun _ => rfl) (fun _ => rfl)) fun _ => ⟨fun s hs => ?_⟩
    rw [wp_bind, wp_gets]
    cases hn : s.client.serverName with
    | none => intro u hu; cases hu; exact .noName hn
    | some name =>
      simp only
      unfold sysResolve
      rw [wp_bind, wp_ask]
      generalize env.resolve s.hist name = r
      have hs' : Sane b (St.snoc s (.resolve name r)) := hs.snoc
      cases r with
      | none => exact (Minds.pure _).run _ hs'
      | some a =>
        dsimp only
        rw [wp_ite]
        refine ⟨fun hl u hu => ?_, fun _ => ?_⟩
        · cases hu
          exact .longAddress name a hl (by simp)
        · refine Minds.run ?_ _ hs'
          minds [setNonBlocking_minds, addLog_minds, connectPOSIX_minds]

theorem greetingResult_minds (r : Option Bytes) : Minds env b (greetingResult r) := by
  unfold greetingResult; minds [addLog_minds]

theorem checkServerGreetings_minds : Minds env b checkServerGreetings := by
  unfold checkServerGreetings; minds [greetingResult_minds, waitLoop_minds, bioRead_minds, sysRecv_minds]

theorem lastResponseText_minds : Minds env true lastResponseText := by
  constructor
  intro s hs
  unfold lastResponseText
  rw [wp_bind, wp_gets]
  cases h : s.client.lastResponse with
  | none => exact absurd h (hs.resp rfl)
  | some t => exact hs

theorem ehloLoop_minds (tc : Int) (n : Nat) (o : Bytes) : Minds env true (ehloLoop tc n o) := by
  induction n generalizing o with
  | zero => exact Minds.fuel
  | succ n ih =>
    unfold ehloLoop
    have h : Minds env true getServerReply := ⟨fun s hs => wp_mono (getServerReply_answered s hs) (fun _ _ h => h.1) (fun _ _ h => h)⟩
    minds [lastResponseText_minds, ih]

/-- Identification keeps the session sane; after success there is a last response. -/
theorem identify_answered (err tc : Int) (he : err ≠ 250) (ht : tc ≠ 250) (s : St) (hs : Sane b s) :
    wp env (identify err tc) (fun c s' => Sane b s' ∧ (c = 250 → s'.client.lastResponse ≠ none)) Blamed s := by
  unfold identify
  rw [wp_bind]
  refine wp_mono ((addLog_minds _ _).run s hs) (fun _ s1 h1 => ?_) (fun _ _ h => h)
  rw [wp_bind]
  refine wp_mono (sendFb_answered _ _ _ s1 h1) (fun c s2 h2 => ?_) (fun _ _ h => h)
  rw [wp_ite]
  refine ⟨fun hc => ⟨h2.1, fun h => absurd h hc⟩, fun hc => ?_⟩
  have hc : c = 250 := Decidable.not_not.mp hc
  have h3 : Sane true s2 := ⟨h2.1.log, fun _ => h2.2 (by rw [hc]; exact fun h => he h.symm) (by rw [hc]; exact fun h => ht h.symm), h2.1.echo⟩
  have key : Minds env true (do
      let first ← lastResponseText
      match ← ehloLoop tc (← M.env (·.fuel)) first with
      | .inl e => pure e
      | .inr options => do
        setAuthOptions options
        pure 250) := by
    have : ∀ t, Minds env true (setAuthOptions t) := fun t => ⟨fun s h => ⟨h.log, h.resp, h.echo⟩⟩
    minds [lastResponseText_minds, ehloLoop_minds, this]
  exact wp_mono (key.run s2 h3) (fun _ _ h => ⟨⟨h.log, fun _ => h.resp rfl, h.echo⟩, fun _ => h.resp rfl⟩) (fun _ _ h => h)

theorem sendServerIdentification_minds : Minds env b sendServerIdentification :=
  ⟨fun s hs => wp_mono (identify_answered _ _ (by decide) (by decide) s hs) (fun _ _ h => h.1) (fun _ _ h => h)⟩

theorem getServerSecureIdentification_minds : Minds env b getServerSecureIdentification :=
  Minds.bind (addLog_minds _ _) fun _ =>
    ⟨fun s hs => wp_mono (identify_answered _ _ (by decide) (by decide) s hs) (fun _ _ h => h.1) (fun _ _ h => h)⟩

theorem natDec_length (n : Nat) : (natDec n).length = decimals n := by simp [natDec, decimals]

theorem startTLSNegotiation_minds : Minds env b startTLSNegotiation := by
  unfold startTLSNegotiation sysTls setErrNo
  refine Minds.bind (addLog_minds _ _) fun _ => Minds.bind (Minds.ask _ _) fun _ => Minds.ite ?_ ?_
  · minds []
  · refine Minds.bind (Minds.plain (fun _ => rfl) (fun _ => rfl)) fun _ => Minds.bind Minds.histLength fun id => ⟨fun s hs => ?_⟩
    rw [wp_bind, wp_ask]
    generalize hr : env.tls s.hist .bioNew = r
    have hs' : Sane b (St.snoc s (.tls .bioNew r)) := hs.snoc
    change wp env _ _ _ (St.snoc s (.tls .bioNew r))
    rw [wp_ite]
    refine ⟨fun _ => Minds.run (by minds []) _ hs', fun _ => ?_⟩
    rw [wp_bind, wp_gets, wp_bind, wp_modify, wp_bind, wp_gets]
    cases hn : s.client.serverName with
    | none =>
      have e : (St.snoc s (.tls .bioNew r)).client.serverName = none := hn
      simp only [e]
      intro u hu
      cases hu
      exact .noName rfl
    | some name =>
      have e : (St.snoc s (.tls .bioNew r)).client.serverName = some name := hn
      simp only [e]
      rw [wp_bind, wp_gets, wp_ite]
      refine ⟨fun hl u hu => ?_, fun _ => Minds.run ?_ _ (hs'.change rfl rfl)⟩
      · cases hu
        refine .longName name r rfl ?_ (by simp [St.snoc])
        rw [natDec_length] at hl
        exact hl
      · minds [addLog_minds, cleanup_minds]

/-! ### Authentication -/

theorem authenticateClient_minds : Minds env b authenticateClient := by
  constructor
  intro s hs
  unfold authenticateClient
  rw [wp_bind, wp_gets]
  cases hc : s.client.credential with
  | none => exact hs
  | some c =>
    simp only
    rw [wp_bind, wp_gets]
    cases ho : s.client.authOptions with
    | none => intro u hu; cases hu; exact .noMechanisms c hc ho
    | some o =>
      refine Minds.run ?_ s hs
      simp only
      unfold authPlainM authLoginM authXOAuth2M
      minds [addLog_minds, sendPtrFb_minds]

theorem authenticateIfNeeded_minds : Minds env b authenticateIfNeeded := by
  unfold authenticateIfNeeded; minds [authenticateClient_minds]

/-! ### Establishing the connection -/

theorem trim_error_high {s : Bytes} {u : UB} (h : trim s = .error u) : u = .isspaceDomain ∧ ∃ c ∈ s, 128 ≤ c := by
  refine ⟨trim_error_dom h, ?_⟩
  apply Classical.byContradiction
  intro hn
  obtain ⟨t, ht, _⟩ := Props.C04_trim_ascii s (fun c hc => by
    apply Classical.byContradiction
    intro hcc
    exact hn ⟨c, hc, UInt8.not_lt.mp hcc⟩)
  rw [h] at ht
  cases ht

theorem establishOpportunistic_minds :
    ∀ s, Sane b s → s.client.kind = .opportunistic → wp env establishOpportunistic (fun _ => Sane b) Blamed s := by
  intro s hs hk
  unfold establishOpportunistic
  rw [wp_bind, wp_gets]
  cases he : isStartTLSSupported s.client.lastResponse with
  | error u =>
    intro u' hu
    cases hu
    unfold isStartTLSSupported at he
    cases hr : s.client.lastResponse with
    | none => simp [hr] at he
    | some t =>
      simp only [hr] at he
      split at he
      · cases he
      · cases ht : trim t with
        | ok x => simp only [ht] at he; split at he <;> cases he
        | error u1 =>
          simp only [ht] at he
          cases he
          obtain ⟨rfl, c, hc, hh⟩ := trim_error_high ht
          exact .strangeReply c hk (hs.echo t hr c hc) hh
  | ok v =>
    refine Minds.run ?_ s hs
    cases v with
    | true =>
      simp only
      unfold upgradeToSecureConnection
      minds [addLog_minds, sendRawFb_minds, startTLSNegotiation_minds, getServerSecureIdentification_minds, authenticateIfNeeded_minds]
    | false =>
      simp only
      unfold setKeepUsingBase
      minds [addLog_minds]

theorem establishForced_minds : Minds env b establishForced := by
  unfold establishForced
  minds [startTLSNegotiation_minds, checkServerGreetings_minds, getServerSecureIdentification_minds, authenticateIfNeeded_minds]

/-- The kind of the object stays what it is. -/
abbrev SameKind (s s' : St) : Prop := s'.client.kind = s.client.kind

instance : Anything SameKind := kind_anything

/-- Between calls: a connected object has a log, and the last response is from the server. -/
structure Ready (s : St) : Prop where
  log : s.client.isConnected = true → HasLog s
  echo : Echo s

theorem Sane.ready {s : St} (h : Sane b s) : Ready s := ⟨fun _ => h.log, h.echo⟩

theorem establish_minds (s : St) (hs : Echo s) : wp env establish (fun _ => Sane false) Blamed s := by
  unfold establish initializeSession
  rw [wp_bind, wp_bind, wp_modifyMem]
  have h0 : Sane false { s with client := { s.client with log := some .fresh }, mem := s.mem ++ [.freshLog] } := ⟨⟨_, rfl, logOk_fresh⟩, nofun, hs⟩
  refine wp_mono (initializePOSIX_minds.run _ h0) (fun c s1 h1 => ?_) (fun _ _ h => h)
  rw [wp_ite]
  refine ⟨fun _ => h1, fun _ => ?_⟩
  rw [wp_bind, wp_gets]
  cases hk : s1.client.kind with
  | smtp =>
    refine Minds.run ?_ s1 h1
    simp only
    unfold establishGreeted
    minds [checkServerGreetings_minds, sendServerIdentification_minds, authenticateIfNeeded_minds]
  | forced => exact establishForced_minds.run s1 h1
  | opportunistic =>
    simp only
    unfold establishGreeted
    rw [wp_bind]
    refine wp_mono (wp_and (checkServerGreetings_minds.run s1 h1) (checkServerGreetings_steps.run (R := SameKind) s1))
      (fun c s2 h2 => ?_) (fun _ _ h => h.1)
    rw [wp_ite]
    refine ⟨fun _ => h2.1, fun _ => ?_⟩
    rw [wp_bind]
    refine wp_mono (wp_and (sendServerIdentification_minds.run s2 h2.1) ((identify_steps' _ _).run (R := SameKind) s2))
      (fun c s3 h3 => ?_) (fun _ _ h => h.1)
    rw [wp_ite]
    exact ⟨fun _ => h3.1, fun _ => establishOpportunistic_minds s3 h3.1 (h3.2.trans (h2.2.trans hk))⟩

/-! ### Sending a message -/

theorem mailFromLoop_minds (last : Int) (fs : List Bytes) : Minds env b (mailFromLoop last fs) := by
  induction fs generalizing last with
  | nil => exact Minds.pure _
  | cons f fs ih => unfold mailFromLoop; minds [addLog_minds, sendPtrFb_minds, ih]

theorem addMailRecipients_minds (r : Int) (l : List MessageAddress) : Minds env b (addMailRecipients r l) := by
  induction l generalizing r with
  | nil => exact Minds.pure _
  | cons f fs ih => unfold addMailRecipients; minds [addLog_minds, sendPtrFb_minds, ih]

theorem arrElems_minds {a : Arr α} (h : ArrayOk a) : Minds env b (arrElems a) := by
  unfold ArrayOk at h
  unfold arrElems
  cases hp : a.ptr with
  | none => simp only [hp] at h ⊢; rw [if_pos h]; exact Minds.pure _
  | some l => simp only [hp] at h ⊢; rw [if_pos h]; exact Minds.pure _

theorem recipientsLoop_minds (as : List (Arr MessageAddress)) (h : ∀ a ∈ as, ArrayOk a) : Minds env b (recipientsLoop as) := by
  induction as with
  | nil => exact Minds.pure _
  | cons a as ih =>
    have h1 : Minds env b (arrElems a) := arrElems_minds (h a (by simp))
    have h2 := ih fun x hx => h x (by simp [hx])
    unfold recipientsLoop
    minds [addMailRecipients_minds]

theorem addMailHeader_minds (f v e) : Minds env b (addMailHeader f v e) := by
  unfold addMailHeader; minds [addLog_minds, sendPtr_minds]

theorem addressHeader_minds (f) {a : Arr MessageAddress} (h : ArrayOk a) : Minds env b (addressHeader f a) := by
  have h1 : Minds env b (arrElems a) := arrElems_minds h
  unfold addressHeader; minds [addMailHeader_minds]

theorem setMailHeaders_minds {m : Message} (h : MessageOk m) : Minds env b (setMailHeaders m) := by
  have h1 : Minds env b (addressHeader b!"To" m.to) := addressHeader_minds _ h.to
  have h2 : Minds env b (addressHeader b!"Cc" m.cc) := addressHeader_minds _ h.cc
  unfold setMailHeaders; minds [addMailHeader_minds, addLog_minds, sendPtr_minds, sendPtrFb_minds]

theorem attachmentsLoop_minds (l : List Attachment) : Minds env b (attachmentsLoop l) := by
  induction l with
  | nil => exact Minds.pure _
  | cons a as ih => unfold attachmentsLoop base64EncodedFile sysReadFile; minds []

theorem fullBody_minds {m : Message} (h : MessageOk m) : Minds env b (fullBody m) := by
  have h1 : Minds env b (arrElems m.attachments) := arrElems_minds h.attachments
  unfold fullBody createAttachmentsText; minds [attachmentsLoop_minds]

theorem sendPieces_minds (l : List Bytes) : Minds env b (sendPieces l) := by
  induction l with
  | nil => exact Minds.pure _
  | cons a as ih => unfold sendPieces; minds [sendPtr_minds]

theorem sendBodyText_minds (t : Bytes) : Minds env b (sendBodyText t) := by
  unfold sendBodyText; minds [sendPtr_minds, sendPieces_minds]

theorem setMailBody_minds {m : Message} (h : MessageOk m) : Minds env b (setMailBody m) := by
  have h1 : Minds env b (fullBody m) := fullBody_minds h
  unfold setMailBody; minds [addLog_minds, sendBodyText_minds, sendPtrFb_minds, sendQuit_minds]

theorem sendMailConnected_minds {m : Message} (h : MessageOk m) : Minds env b (sendMailConnected m) := by
  have h1 : Minds env b (setMailHeaders m) := setMailHeaders_minds h
  have h2 : Minds env b (setMailBody m) := setMailBody_minds h
  have h3 : Minds env b (recipientsLoop [m.to, m.cc, m.bcc]) := recipientsLoop_minds _ (by
    intro a ha
    simp only [List.mem_cons, List.not_mem_nil, or_false] at ha
    rcases ha with rfl | rfl | rfl
    · exact h.to
    · exact h.cc
    · exact h.bcc)
  unfold sendMailConnected setMailRecipients sendMailRest; minds [mailFromLoop_minds, cleanup_minds]

theorem sendMail_ready {m : Message} (h : MessageOk m) (s : St) (hs : Ready s) : wp env (sendMail m) (fun _ => Ready) Blamed s := by
  unfold sendMail
  rw [wp_bind, wp_gets, wp_ite]
  constructor
  · intro hc
    have : Sane false s := ⟨hs.log hc, nofun, hs.echo⟩
    exact wp_mono ((sendMailConnected_minds h).run s this) (fun _ _ h => h.ready) (fun _ _ h => h)
  · intro _
    rw [wp_bind]
    refine wp_mono (establish_minds s hs.echo) (fun c s1 h1 => ?_) (fun _ _ h => h)
    rw [wp_ite]
    exact ⟨fun _ => h1.ready, fun _ => wp_mono ((sendMailConnected_minds h).run s1 h1) (fun _ _ h => h.ready) (fun _ _ h => h)⟩

/-! ### The object -/

theorem checkName_error_high {p : Option Bytes} {u : UB} (h : checkName p = .error (.ub u)) :
    u = .isspaceDomain ∧ ∃ m, p = some m ∧ ∃ c ∈ m, 128 ≤ c := by
  cases p with
  | none => simp [checkName] at h
  | some m =>
    by_cases he : (cstr m).length = 0
    · simp [checkName, he, throw, throwThe, MonadExceptOf.throw, bind, Except.bind] at h
    · cases ht : trim (cstr m) with
      | error u' =>
        have : u' = u := by simpa [checkName, he, trimEmpty, ht, bind, Except.bind, pure, Except.pure] using h
        subst this
        obtain ⟨h1, c, hc, hh⟩ := trim_error_high ht
        exact ⟨h1, m, rfl, c, mem_cstr hc, hh⟩
      | ok t =>
        exfalso
        cases t <;> simp [checkName, he, trimEmpty, ht, bind, Except.bind, pure, Except.pure, throw, throwThe, MonadExceptOf.throw] at h

theorem Ready.change {s : St} {k : Client} (h : Ready s) (h1 : k.log = s.client.log) (h2 : k.lastResponse = s.client.lastResponse)
    (h3 : k.isConnected = s.client.isConnected) : Ready { s with client := k } := by
  refine ⟨fun hc => ?_, fun t ht => h.echo t (h2.symm.trans ht)⟩
  obtain ⟨l, e, ho⟩ := h.log (h3.symm.trans hc)
  exact ⟨l, h1.trans e, ho⟩

theorem Ready.snoc {s : St} {e : Ev} (h : Ready s) : Ready (St.snoc s e) :=
  ⟨h.log, fun t ht c hc => received_append (h.echo t ht c hc)⟩

theorem doCall_ready (c : Call) (hc : CallOk c) (s : St) (hs : Ready s) : wp env (doCall c) (fun _ => Ready) Blamed s := by
  unfold doCall
  rw [wp_bind, wp_emit]
  have hs' : Ready (St.snoc s (.call c)) := hs.snoc
  change wp env _ _ _ (St.snoc s (.call c))
  cases c with
  | setServerName p =>
    simp only
    unfold setServerName
    cases he : checkName p with
    | ok n => exact hs'.change rfl rfl rfl
    | error e =>
      cases e with
      | invalidArgument => exact hs'
      | ub u =>
        intro u' hu
        cases hu
        obtain ⟨rfl, m, rfl, x, hx, hh⟩ := checkName_error_high he
        exact .strangeName m (by simp [St.snoc]) x hx hh
  | setServerPort n => exact hs'.change rfl rfl rfl
  | setBatchMode n => exact hs'.change rfl rfl rfl
  | setCommandTimeout n => exact hs'.change rfl rfl rfl
  | setCredentials n => exact hs'.change rfl rfl rfl
  | setKeepUsingBaseSendCommands n => exact hs'.change rfl rfl rfl
  | setAcceptSelfSignedCert n => exact hs'.change rfl rfl rfl
  | sendMail m =>
    simp only
    rw [wp_bind]
    exact sendMail_ready hc _ hs'

theorem cleanup_ready (s : St) (hs : Ready s) : wp env cleanup (fun _ _ => True) Blamed s := by
  by_cases hc : s.client.isConnected = true
  · have : Sane false s := ⟨hs.log hc, nofun, hs.echo⟩
    exact wp_mono (cleanup_minds.run s this) (fun _ _ _ => trivial) (fun _ _ h => h)
  · unfold cleanup
    rw [wp_bind, wp_env]
    cases env.depth with
    | zero => exact nofun
    | succ n =>
      unfold cleanupN closeSession freeTls closeSocket emitBioFree sysClose
      simp only [wp_bind, wp_gets, wp_modify, wp_ite, wp_emit, Bool.not_eq_true] at hc ⊢
      simp only [hc, Bool.and_false, Bool.false_eq_true, false_implies, true_and, implies_true]
      intro _ _
      cases s.client.bio <;> exact trivial

theorem destroy_ready (s : St) (hs : Ready s) : wp env destroy (fun _ _ => True) Blamed s := by
  unfold destroy
  rw [wp_bind, wp_emit]
  exact cleanup_ready _ hs.snoc

end Verif.Proofs
