import Verif.Proofs.Frame
import Verif.Spec.Channels
/-!
# Replies are read where the command was sent
-/
namespace Verif.Proofs
open Verif Verif.Model Verif.Spec

variable {α : Type} {env : Env} {s : St}

/-- The channel on which a reply is awaited, after one more event. -/
def expecting : Option Chan → Ev → Option Chan
  | _, .send .cmd c _ (.sent _) => some c
  | _, .send _ _ _ _ => none
  | _, .socket _ => none
  | _, .tls _ _ => none
  | w, _ => w

/-- The channel on which a reply is awaited. -/
def awaited (h : Hist) : Option Chan := h.foldl expecting none

theorem awaited_snoc (h : Hist) (e : Ev) : awaited (h ++ [e]) = expecting (awaited h) e := by
  simp [awaited, List.foldl_append]

/-- Every read so far was on the channel on which a reply was awaited, if any was. -/
def Tuned (h : Hist) : Prop := ∀ pre c r post, h = pre ++ .recv c r :: post → ∀ c', awaited pre = some c' → c' = c

theorem Tuned.snoc {h : Hist} {e : Ev} (ht : Tuned h) (he : ∀ c r, e = .recv c r → ∀ c', awaited h = some c' → c' = c) : Tuned (h ++ [e]) := by
  intro pre c r post hp
  rcases List.eq_nil_or_concat post with rfl | ⟨post', x, rfl⟩
  · obtain ⟨h1, h2⟩ := List.append_inj' hp rfl
    subst h1
    exact he c r (by simpa using h2)
  · rw [List.concat_eq_append, ← List.cons_append, ← List.append_assoc] at hp
    exact ht pre c r post' (List.append_inj' hp rfl).1

theorem tuned_channels {h : Hist} (ht : Tuned h) : RepliesOnChannel h := by
  intro pre ch d n mid c r post e hm
  have key : ∀ (mid : Hist), (∀ e ∈ mid, ¬ Interrupts e) → mid.foldl expecting (some ch) = some ch := by
    intro mid hm
    induction mid with
    | nil => rfl
    | cons e mid ih =>
      have h1 := hm e (by simp)
      have : expecting (some ch) e = some ch := by
        cases e <;> first | rfl | exact absurd trivial h1
      rw [List.foldl_cons, this]
      exact ih fun x hx => hm x (by simp [hx])
  refine (ht (pre ++ .send .cmd ch d (.sent n) :: mid) c r post (by rw [e]; simp) ch ?_).symm
  simp only [awaited, List.foldl_append, List.foldl_cons, expecting]
  exact key mid hm

/-- `Tuned` is kept: true of everything that does not read. -/
def KeepsTuned (s s' : St) : Prop := Tuned s.hist → Tuned s'.hist

theorem keepsTuned_same {s s' : St} (h : s'.hist = s.hist) : KeepsTuned s s' := fun ht => h ▸ ht

theorem keepsTuned_snoc {s : St} {e : Ev} (he : ∀ c r, e ≠ .recv c r) : KeepsTuned s (St.snoc s e) :=
  fun ht => ht.snoc fun c r h => absurd h (he c r)

instance : Silent KeepsTuned where
  refl := fun _ h => h
  trans := fun h h' ht => h' (h ht)
  log := fun _ _ _ _ _ _ _ h => h
  errno := fun _ _ h => h
  resp := fun _ _ h => h
  auth := fun _ _ h => h
  fcntlGet := fun _ _ _ => keepsTuned_snoc nofun
  fcntlSet := fun _ _ _ _ => keepsTuned_snoc nofun
  select := fun _ _ _ => keepsTuned_snoc nofun
  sockopt := fun _ _ _ => keepsTuned_snoc nofun
  resolve := fun _ _ _ => keepsTuned_snoc nofun
  connect := fun _ _ _ _ => keepsTuned_snoc nofun
  readFile := fun _ _ _ => keepsTuned_snoc nofun
  disconnected := fun _ h => h
  ctx := fun _ _ h => h
  noBio := fun _ h => h
  noSock := fun _ h => h
  close := fun _ _ => keepsTuned_snoc nofun
  bioFree := fun _ _ => keepsTuned_snoc nofun
  quit := fun _ _ _ => keepsTuned_snoc nofun
  freshLog := fun _ h => h
  keep := fun _ h => h
  bio := fun _ _ h => h
  sock := fun _ _ h => h
  socket := fun _ _ => keepsTuned_snoc nofun
  tls := fun _ _ _ => keepsTuned_snoc nofun
  connected := fun _ h => h
  content := fun _ _ _ _ => keepsTuned_snoc nofun

/-- Nothing is awaited. -/
def KeepsIdle (s s' : St) : Prop := awaited s.hist = none → awaited s'.hist = none

theorem keepsIdle_snoc {s : St} {e : Ev} (he : expecting none e = none) : KeepsIdle s (St.snoc s e) := by
  intro h
  simp [St.snoc, awaited_snoc, h, he]

instance : Opening KeepsIdle where
  refl := fun _ h => h
  trans := fun h h' ht => h' (h ht)
  log := fun _ _ _ _ _ _ _ h => h
  errno := fun _ _ h => h
  resp := fun _ _ h => h
  auth := fun _ _ h => h
  fcntlGet := fun _ _ _ => keepsIdle_snoc rfl
  fcntlSet := fun _ _ _ _ => keepsIdle_snoc rfl
  select := fun _ _ _ => keepsIdle_snoc rfl
  sockopt := fun _ _ _ => keepsIdle_snoc rfl
  resolve := fun _ _ _ => keepsIdle_snoc rfl
  connect := fun _ _ _ _ => keepsIdle_snoc rfl
  disconnected := fun _ h => h
  ctx := fun _ _ h => h
  noBio := fun _ h => h
  noSock := fun _ h => h
  close := fun _ _ => keepsIdle_snoc rfl
  bioFree := fun _ _ => keepsIdle_snoc rfl
  quit := fun _ _ _ => keepsIdle_snoc rfl
  freshLog := fun _ h => h
  keep := fun _ h => h
  bio := fun _ _ h => h
  sock := fun _ _ h => h
  socket := fun _ _ => keepsIdle_snoc rfl
  tls := fun _ _ _ => keepsIdle_snoc rfl

/-- Which channel the client would read, as a function of the members that matter. -/
abbrev Tuner := Kind → Int → Option Bio → Option Chan

/-- `recv` on the socket. -/
def rawTuner : Tuner := fun _ sock _ => some (.raw sock)
/-- `BIO_read`. -/
def tlsTuner : Tuner := fun _ _ bio => bio.map fun b => .tls b.id b.fd
/-- `getServerReply`. -/
def replyTuner : Tuner := fun k sock bio => if k == .smtp then rawTuner k sock bio else tlsTuner k sock bio

/-- The channel the client would read is the one on which a reply is awaited, if any is. -/
def Listens (g : Tuner) (s : St) : Prop :=
  Tuned s.hist ∧ ∀ c, g s.client.kind s.client.sock s.client.bio = some c → ∀ c', awaited s.hist = some c' → c' = c

/-- … as a relation; the members that matter do not change. -/
def KeepsReady (g : Tuner) (s s' : St) : Prop :=
  s'.client.kind = s.client.kind ∧ s'.client.sock = s.client.sock ∧ s'.client.bio = s.client.bio ∧ (Listens g s → Listens g s')

theorem keepsReady_snoc {g : Tuner} {s : St} {e : Ev} (he : ∀ w, expecting w e = w) (hr : ∀ c r, e = .recv c r → g s.client.kind s.client.sock s.client.bio = some c) :
    KeepsReady g s (St.snoc s e) := by
  refine ⟨rfl, rfl, rfl, fun h => ⟨h.1.snoc fun c r hc => h.2 c (hr c r hc), fun c hc c' hc' => ?_⟩⟩
  simp only [St.snoc, awaited_snoc, he] at hc'
  exact h.2 c hc c' hc'

instance (g : Tuner) : Sleeping (KeepsReady g) where
  refl := fun _ => ⟨rfl, rfl, rfl, fun h => h⟩
  trans := fun h h' => ⟨h'.1.trans h.1, h'.2.1.trans h.2.1, h'.2.2.1.trans h.2.2.1, fun hr => h'.2.2.2 (h.2.2.2 hr)⟩
  log := fun _ _ _ _ _ _ _ => ⟨rfl, rfl, rfl, fun h => h⟩
  errno := fun _ _ => ⟨rfl, rfl, rfl, fun h => h⟩
  resp := fun _ _ => ⟨rfl, rfl, rfl, fun h => h⟩
  auth := fun _ _ => ⟨rfl, rfl, rfl, fun h => h⟩
  fcntlGet := fun _ _ _ => keepsReady_snoc (fun _ => rfl) nofun
  fcntlSet := fun _ _ _ _ => keepsReady_snoc (fun _ => rfl) nofun
  select := fun _ _ _ => keepsReady_snoc (fun _ => rfl) nofun
  sockopt := fun _ _ _ => keepsReady_snoc (fun _ => rfl) nofun
  resolve := fun _ _ _ => keepsReady_snoc (fun _ => rfl) nofun
  connect := fun _ _ _ _ => keepsReady_snoc (fun _ => rfl) nofun
  sleep := fun _ => keepsReady_snoc (fun _ => rfl) nofun

section
variable {g : Tuner}

theorem sysRecv_ready (s : St) {c : Chan} (hc : g s.client.kind s.client.sock s.client.bio = some c) :
    wp env (sysRecv c) (fun _ => KeepsReady g s) (fun _ => KeepsReady g s) s := by
  have key : ∀ r, KeepsReady g s (St.snoc s (.recv c r)) := fun r => keepsReady_snoc (fun _ => rfl) fun c' r' h => by cases h; exact hc
  unfold sysRecv
  rw [wp_bind, wp_ask, wp_ite]
  exact ⟨fun _ => key _, fun _ => key _⟩

theorem sysSleep_ready : Steps env (KeepsReady g) sysSleep := Steps.emit fun s => Sleeping.sleep s

theorem rawReplyLoop_ready (n w a b) : Steps env (KeepsReady rawTuner) (rawReplyLoop n w a b) := by
  induction n generalizing w a b with
  | zero => unfold rawReplyLoop; steps []
  | succ n ih =>
    constructor
    intro s
    unfold rawReplyLoop
    rw [wp_bind, wp_gets, wp_bind, wp_gets, wp_bind]
    refine wp_mono (sysRecv_ready s rfl) (fun r s1 h1 => ?_) (fun _ _ h => h)
    refine wp_mono (Steps.run (R := KeepsReady rawTuner) ?_ s1) (fun _ _ h => Preord.trans h1 h) (fun _ _ h => Preord.trans h1 h)
    cases r <;> steps [sysSleep_ready, ih]

theorem getRawReply_ready : Steps env (KeepsReady rawTuner) getRawReply := by
  unfold getRawReply
  steps [setNonBlocking_steps, setBlocking_steps, rawReplyLoop_ready, addLog_steps, setLastServerResponse_steps]

theorem bioRead_ready : Steps env (KeepsReady tlsTuner) bioRead := by
  constructor
  intro s
  unfold bioRead
  rw [wp_bind, wp_gets]
  cases hb : s.client.bio with
  | none => exact (Preord.refl (R := KeepsReady tlsTuner) s)
  | some b => exact sysRecv_ready s (by simp [tlsTuner, hb])

theorem waitLoop_ready {read : M RecvRes} (hr : Steps env (KeepsReady g) read) (n) : Steps env (KeepsReady g) (waitLoop read n) := by
  induction n with
  | zero => unfold waitLoop; steps []
  | succ n ih => unfold waitLoop; steps [sysSleep_ready]

theorem getTlsReply_ready : Steps env (KeepsReady tlsTuner) getTlsReply := by
  unfold getTlsReply
  steps [waitLoop_ready bioRead_ready, addLog_steps, setLastServerResponse_steps]

theorem ready_congr {g g' : Tuner} {s s' : St} (h : KeepsReady g s s') (he : g s.client.kind s.client.sock s.client.bio = g' s.client.kind s.client.sock s.client.bio) :
    KeepsReady g' s s' := by
  refine ⟨h.1, h.2.1, h.2.2.1, fun hr => ?_⟩
  have h4 := h.2.2.2
  unfold Listens at hr h4 ⊢
  rw [h.1, h.2.1, h.2.2.1] at h4 ⊢
  rw [he] at h4
  exact h4 hr

theorem getServerReply_ready : Steps env (KeepsReady replyTuner) getServerReply := by
  constructor
  intro s
  unfold getServerReply
  rw [wp_bind, wp_gets, wp_ite]
  refine ⟨fun h => ?_, fun h => ?_⟩
  · refine wp_mono (getRawReply_ready.run s) (fun _ _ h' => ready_congr h' ?_) (fun _ _ h' => ready_congr h' ?_) <;> simp [replyTuner, h]
  · refine wp_mono (getTlsReply_ready.run s) (fun _ _ h' => ready_congr h' ?_) (fun _ _ h' => ready_congr h' ?_) <;> simp [replyTuner, h]

theorem ehloLoop_ready (t n o) : Steps env (KeepsReady replyTuner) (ehloLoop t n o) := by
  induction n generalizing o with
  | zero => unfold ehloLoop; steps []
  | succ n ih => unfold ehloLoop; steps [getServerReply_ready, lastResponseText_steps, ih]

end

/-- A run that keeps `Tuned`, and leaves the client ready for more of the reply unless the result is one of the two codes. -/
def Asked (env : Env) (m : M Int) (e t : Int) (s : St) : Prop :=
  wp env m (fun code s' => Tuned s'.hist ∧ (code ≠ e → code ≠ t → Listens replyTuner s')) (fun _ s' => Tuned s'.hist) s

theorem cleanup_tuned (h : Tuned s.hist) : wp env cleanup (fun _ s' => Tuned s'.hist) (fun _ s' => Tuned s'.hist) s :=
  wp_mono ((cleanup_steps (R := KeepsTuned)).run s) (fun _ _ h' => h' h) (fun _ _ h' => h' h)

theorem ready_sent {g : Tuner} {s : St} {c : Chan} {d : Bytes} {n : Nat} (h : Tuned s.hist) (hc : ∀ x, g s.client.kind s.client.sock s.client.bio = some x → x = c) :
    Listens g (St.snoc s (.send .cmd c d (.sent n))) := by
  refine ⟨h.snoc nofun, fun x hx c' hc' => ?_⟩
  simp only [St.snoc, awaited_snoc, expecting] at hc' hx
  rw [hc x hx]
  exact (Option.some.inj hc').symm

theorem sendRaw_asks {d : Bytes} {e : Int} (h : Tuned s.hist) :
    wp env (sendRaw .cmd d e) (fun code s' => Tuned s'.hist ∧ (code = 0 → (e ≠ 0 → Listens rawTuner s' ∧ s'.client.kind = s.client.kind ∧ s'.client.bio = s.client.bio)))
      (fun _ s' => Tuned s'.hist) s := by
  unfold sendRaw sendRawWith sysSend
  rw [wp_bind, wp_gets, wp_bind, wp_bind, wp_ask, wp_ite]
  generalize normSend _ _ _ = r
  have h1 : Tuned (s.hist ++ [.send .cmd (.raw s.client.sock) (cstr d) r]) := h.snoc nofun
  refine ⟨fun _ => h1, fun hn => ?_⟩
  rw [wp_pure]
  cases r with
  | never => exact absurd rfl hn
  | fail x =>
    simp only [setErrNo]
    rw [wp_bind, wp_modify, wp_bind]
    refine wp_mono (cleanup_tuned (s := _) h1) (fun _ s' h' => ⟨h', fun h0 he => absurd h0 he⟩) (fun _ _ h' => h')
  | sent n => exact ⟨h1, fun _ _ => ⟨ready_sent (g := rawTuner) h fun x hx => by simpa [rawTuner] using hx.symm, rfl, rfl⟩⟩

theorem sendRawFb_raw {d : Bytes} {e t : Int} (he : e ≠ 0) (h : Tuned s.hist) :
    wp env (sendRawFb d e t) (fun code s' => Tuned s'.hist ∧ (code ≠ e → code ≠ t → Listens rawTuner s' ∧ s'.client.kind = s.client.kind ∧ s'.client.bio = s.client.bio))
      (fun _ s' => Tuned s'.hist) s := by
  unfold sendRawFb
  rw [wp_bind]
  refine wp_mono (sendRaw_asks h) (fun code s1 h1 => ?_) (fun _ _ h => h)
  rw [wp_ite]
  refine ⟨fun _ => ⟨h1.1, fun h => absurd rfl h⟩, fun h0 => ?_⟩
  obtain ⟨r1, k1, b1⟩ := h1.2 (by simpa using h0) he
  rw [wp_bind]
  refine wp_mono (getRawReply_ready.run s1) (fun code s2 h2 => ?_) (fun _ s2 h2 => (h2.2.2.2 r1).1)
  have r2 := h2.2.2.2 r1
  rw [wp_ite]
  refine ⟨fun _ => ⟨r2.1, fun _ _ => ⟨r2, h2.1.trans k1, h2.2.2.1.trans b1⟩⟩, fun _ => ?_⟩
  rw [wp_bind]
  exact wp_mono (cleanup_tuned r2.1) (fun _ s' h' => ⟨h', fun _ h => absurd rfl h⟩) (fun _ _ h' => h')

theorem keepsTuned_of_wp {m : M α} (H : ∀ s : St, Tuned s.hist → wp env m (fun _ s' => Tuned s'.hist) (fun _ s' => Tuned s'.hist) s) :
    Steps env KeepsTuned m := by
  constructor
  intro s
  by_cases h : Tuned s.hist
  · exact wp_mono (H s h) (fun _ _ h' _ => h') (fun _ _ h' _ => h')
  · exact wp_mono (m := m) (Q := fun _ _ => True) (E := fun _ _ => True) (by unfold wp; split <;> trivial)
      (fun _ _ _ h' => absurd h' h) (fun _ _ _ h' => absurd h' h)

theorem sendRawFb_tuned (d : Bytes) (e t : Int) (he : e ≠ 0) : Steps env KeepsTuned (sendRawFb d e t) :=
  keepsTuned_of_wp fun _ h => wp_mono (sendRawFb_raw he h) (fun _ _ h => h.1) (fun _ _ h => h)

theorem sendTlsFb_asks {d : Bytes} {e t : Int} (he : e ≠ 0) (h : Tuned s.hist) (hk : s.client.kind ≠ .smtp) :
    Asked env (sendTlsFb d e t) e t s := by
  have fails : ∀ s1 : St, Tuned s1.hist → wp env (do setErrNo (← M.ask' (·.tlsErr)); cleanup; pure e)
      (fun code s' => Tuned s'.hist ∧ (code = 0 → Listens tlsTuner s' ∧ s'.client.kind = s.client.kind)) (fun _ s' => Tuned s'.hist) s1 := by
    intro s1 h1
    simp only [setErrNo]
    rw [wp_bind, wp_ask', wp_bind, wp_modify, wp_bind]
    exact wp_mono (cleanup_tuned (s := _) h1) (fun _ s' h' => ⟨h', fun h0 => absurd h0 he⟩) (fun _ _ h' => h')
  have send : wp env (sendBioWith cleanup .cmd d e) (fun code s' => Tuned s'.hist ∧ (code = 0 → Listens tlsTuner s' ∧ s'.client.kind = s.client.kind))
      (fun _ s' => Tuned s'.hist) s := by
    unfold sendBioWith sysSend
    rw [wp_bind, wp_gets]
    cases hb : s.client.bio with
    | none => exact fails s h
    | some b =>
      dsimp only
      rw [wp_bind, wp_bind, wp_ask, wp_ite]
      generalize normSend _ _ _ = r
      have h1 : Tuned (s.hist ++ [.send .cmd (.tls b.id b.fd) (cstr d) r]) := h.snoc nofun
      refine ⟨fun _ => h1, fun hn => ?_⟩
      rw [wp_pure]
      cases r with
      | never => exact absurd rfl hn
      | fail x => exact fails _ h1
      | sent n => exact ⟨h1, fun _ => ⟨ready_sent (g := tlsTuner) h fun x hx => by simpa [tlsTuner, hb] using hx.symm, rfl⟩⟩
  unfold Asked sendTlsFb
  rw [wp_bind]
  refine wp_mono send (fun code s1 h1 => ?_) (fun _ _ h => h)
  rw [wp_ite]
  refine ⟨fun _ => ⟨h1.1, fun h => absurd rfl h⟩, fun h0 => ?_⟩
  obtain ⟨r1, k1⟩ := h1.2 (by simpa using h0)
  rw [wp_bind]
  refine wp_mono (getTlsReply_ready.run s1) (fun code s2 h2 => ?_) (fun _ s2 h2 => (h2.2.2.2 r1).1)
  have r2 := h2.2.2.2 r1
  rw [wp_ite]
  refine ⟨fun _ => ⟨r2.1, fun _ _ => ⟨r2.1, fun c hc => r2.2 c ?_⟩⟩, fun _ => ?_⟩
  · simpa [replyTuner, h2.1, k1, hk] using hc
  · rw [wp_bind]
    exact wp_mono (cleanup_tuned r2.1) (fun _ s' h' => ⟨h', fun _ h => absurd rfl h⟩) (fun _ _ h' => h')

theorem sendFb_asks {d : Bytes} {e t : Int} (he : e ≠ 0) (h : Tuned s.hist) : Asked env (sendFb d e t) e t s := by
  unfold Asked sendFb
  rw [wp_bind, wp_gets, wp_bind, wp_gets, wp_ite]
  refine ⟨fun hc => ?_, fun hc => ?_⟩
  · refine wp_mono (sendRawFb_raw he h) (fun code s2 h2 => ⟨h2.1, fun h3 h4 => ?_⟩) (fun _ _ h => h)
    obtain ⟨r2, k2, b2⟩ := h2.2 h3 h4
    refine ⟨r2.1, fun c hc' => r2.2 c ?_⟩
    by_cases hk : s.client.kind = .smtp
    · simpa [replyTuner, k2, hk] using hc'
    · have hb : s.client.bio = none := by simpa [hk] using hc
      simp [replyTuner, tlsTuner, k2, b2, hb, hk] at hc'
  · exact sendTlsFb_asks he h (by intro hk; simp [hk] at hc)

theorem sendPtrFb_tuned (d : Bytes) (e t : Int) (he : e ≠ 0) : Steps env KeepsTuned (sendPtrFb d e t) := by
  have : Steps env KeepsTuned (sendFb d e t) := keepsTuned_of_wp fun _ h => wp_mono (sendFb_asks he h) (fun _ _ h => h.1) (fun _ _ h => h)
  unfold sendPtrFb
  steps [sendRawFb_tuned]

theorem identify_tuned {e t : Int} (he : e ≠ 0) (he' : e ≠ 250) (ht : t ≠ 250) : Steps env KeepsTuned (identify e t) := by
  refine keepsTuned_of_wp fun s h => ?_
  unfold identify
  rw [wp_bind]
  have h0 := (addLog_steps (env := env) (R := KeepsTuned) ehloCmd b!"c").run s
  refine wp_mono h0 (fun _ s1 h1 => ?_) (fun _ _ h' => h' h)
  rw [wp_bind]
  refine wp_mono (sendFb_asks he (h1 h)) (fun code s2 h2 => ?_) (fun _ _ h => h)
  rw [wp_ite]
  refine ⟨fun _ => h2.1, fun hc => ?_⟩
  have hc : code = 250 := by simpa using hc
  have r := h2.2 (by omega) (by omega)
  have key : Steps env (KeepsReady replyTuner) (do
      let first ← lastResponseText
      match ← ehloLoop t (← M.env (·.fuel)) first with
      | .inl e => pure e
      | .inr options => do
        setAuthOptions options
        pure 250) := by
    steps [lastResponseText_steps, ehloLoop_ready, setAuthOptions_steps]
  exact wp_mono (key.run s2) (fun _ _ h' => (h'.2.2.2 r).1) (fun _ _ h' => (h'.2.2.2 r).1)

/-- The greeting is read when nothing is awaited. -/
theorem checkServerGreetings_tuned (h : Tuned s.hist) (hi : awaited s.hist = none) :
    wp env checkServerGreetings (fun _ s' => Tuned s'.hist) (fun _ s' => Tuned s'.hist) s := by
  have ready : ∀ g : Tuner, Listens g s := fun g => ⟨h, fun _ _ c' hc' => by rw [hi] at hc'; cases hc'⟩
  unfold checkServerGreetings
  rw [wp_bind, wp_gets, wp_ite]
  refine ⟨fun _ => ?_, fun _ => ?_⟩
  · have : Steps env (KeepsReady tlsTuner) (do greetingResult (← waitLoop bioRead (← M.gets (·.timeout)))) := by
      steps [waitLoop_ready bioRead_ready, greetingResult_steps]
    exact wp_mono (this.run s) (fun _ _ h' => (h'.2.2.2 (ready _)).1) (fun _ _ h' => (h'.2.2.2 (ready _)).1)
  · rw [wp_bind, wp_gets]
    generalize hs : s.client.sock = fd
    have r1 : Steps env (KeepsReady fun _ _ _ => some (.raw fd)) (sysRecv (.raw fd)) := ⟨fun s => sysRecv_ready s rfl⟩
    have : Steps env (KeepsReady fun _ _ _ => some (.raw fd)) (do greetingResult (← waitLoop (sysRecv (.raw fd)) (← M.gets (·.timeout)))) := by
      steps [waitLoop_ready r1, greetingResult_steps]
    exact wp_mono (this.run s) (fun _ _ h' => (h'.2.2.2 (ready _)).1) (fun _ _ h' => (h'.2.2.2 (ready _)).1)

theorem initializeSession_idle (s : St) : wp env initializeSession (fun _ s' => awaited s'.hist = none) (fun _ s' => awaited s'.hist = none) s := by
  unfold initializeSession initializePOSIX sysSocket
  rw [wp_bind, wp_modifyMem, wp_bind, wp_ask]
  generalize env.socket _ = r
  have h1 : awaited (s.hist ++ [Ev.socket r]) = none := by rw [awaited_snoc]; rfl
  cases r with
  | err e =>
    have : Steps env KeepsIdle (do M.modify ({ · with sock := -1 }); logErrno e; pure (-1 : Int)) := by
      steps [Steps.modify, logErrno_steps]
    exact wp_mono (this.run _) (fun _ _ h' => h' h1) (fun _ _ h' => h' h1)
  | val fd =>
    dsimp only
    refine wp_mono (Steps.run (R := KeepsIdle) ?_ _) (fun _ _ h' => h' h1) (fun _ _ h' => h' h1)
    steps [Steps.modify, logErrno_steps, sysResolve_steps, setNonBlocking_steps, addLog_steps, connectPOSIX_steps]

theorem authenticateIfNeeded_tuned : Steps env KeepsTuned authenticateIfNeeded := by
  have : ∀ d, Steps env KeepsTuned (sendPtrFb d (-81) (-82)) := fun d => sendPtrFb_tuned d _ _ (by decide)
  unfold authenticateIfNeeded authenticateClient authPlainM authLoginM authXOAuth2M
  steps [addLog_steps, this]

theorem tuned_bind {β : Type} {m : M α} {f : α → M β} {P : St → Prop}
    (hm : wp env m (fun _ s' => Tuned s'.hist ∧ P s') (fun _ s' => Tuned s'.hist) s)
    (hf : ∀ a s', Tuned s'.hist → P s' → wp env (f a) (fun _ s' => Tuned s'.hist) (fun _ s' => Tuned s'.hist) s') :
    wp env (m >>= f) (fun _ s' => Tuned s'.hist) (fun _ s' => Tuned s'.hist) s := by
  rw [wp_bind]
  exact wp_mono hm (fun a s' h => hf a s' h.1 h.2) (fun _ _ h => h)

theorem establishGreeted_tuned {rest : M Int} (hr : Steps env KeepsTuned rest) (h : Tuned s.hist) (hi : awaited s.hist = none) :
    wp env (establishGreeted rest) (fun _ s' => Tuned s'.hist) (fun _ s' => Tuned s'.hist) s := by
  unfold establishGreeted
  rw [wp_bind]
  refine wp_mono (checkServerGreetings_tuned h hi) (fun code s1 h1 => ?_) (fun _ _ h => h)
  have : Steps env KeepsTuned sendServerIdentification := identify_tuned (by decide) (by decide) (by decide)
  refine wp_mono (Steps.run (R := KeepsTuned) ?_ s1) (fun _ _ h' => h' h1) (fun _ _ h' => h' h1)
  steps []

theorem getServerSecureIdentification_tuned : Steps env KeepsTuned getServerSecureIdentification := by
  have : Steps env KeepsTuned (identify (-59) (-60)) := identify_tuned (by decide) (by decide) (by decide)
  unfold getServerSecureIdentification
  steps [addLog_steps]

theorem establishOpportunistic_tuned : Steps env KeepsTuned establishOpportunistic := by
  have : Steps env KeepsTuned (sendRawFb startTlsCmd (-30) (-31)) := sendRawFb_tuned _ _ _ (by decide)
  unfold establishOpportunistic upgradeToSecureConnection setKeepUsingBase
  steps [addLog_steps, startTLSNegotiation_steps, getServerSecureIdentification_tuned, authenticateIfNeeded_tuned, Steps.modify]

theorem establishForced_tuned (h : Tuned s.hist) (hi : awaited s.hist = none) :
    wp env establishForced (fun _ s' => Tuned s'.hist) (fun _ s' => Tuned s'.hist) s := by
  unfold establishForced
  rw [wp_bind]
  refine wp_mono (wp_and ((startTLSNegotiation_steps (R := KeepsTuned)).run s) ((startTLSNegotiation_steps (R := KeepsIdle)).run s))
    (fun code s1 h1 => ?_) (fun _ _ h' => h'.1 h)
  rw [wp_ite]
  refine ⟨fun _ => h1.1 h, fun _ => ?_⟩
  rw [wp_bind]
  refine wp_mono (checkServerGreetings_tuned (h1.1 h) (h1.2 hi)) (fun code s2 h2 => ?_) (fun _ _ h => h)
  refine wp_mono (Steps.run (R := KeepsTuned) ?_ s2) (fun _ _ h' => h' h2) (fun _ _ h' => h' h2)
  steps [getServerSecureIdentification_tuned, authenticateIfNeeded_tuned]

theorem establish_tuned : Steps env KeepsTuned establish := by
  refine keepsTuned_of_wp fun s h => ?_
  unfold establish
  rw [wp_bind]
  refine wp_mono (wp_and ((initializeSession_steps (R := KeepsTuned)).run s) (initializeSession_idle s)) (fun code s1 h1 => ?_) (fun _ _ h' => h'.1 h)
  have ht := h1.1 h
  rw [wp_ite]
  refine ⟨fun _ => ht, fun _ => ?_⟩
  rw [wp_bind, wp_gets]
  cases s1.client.kind with
  | smtp => exact establishGreeted_tuned authenticateIfNeeded_tuned ht h1.2
  | opportunistic => exact establishGreeted_tuned establishOpportunistic_tuned ht h1.2
  | forced => exact establishForced_tuned ht h1.2

theorem mailFromLoop_tuned (c l) : Steps env KeepsTuned (mailFromLoop c l) := by
  induction l generalizing c with
  | nil => unfold mailFromLoop; steps []
  | cons f l ih =>
    have := sendPtrFb_tuned (env := env) f (-85) (-86) (by decide)
    unfold mailFromLoop; steps [addLog_steps, ih]

theorem addMailRecipients_tuned (c l) : Steps env KeepsTuned (addMailRecipients c l) := by
  induction l generalizing c with
  | nil => unfold addMailRecipients; steps []
  | cons a l ih =>
    have := sendPtrFb_tuned (env := env) (rcptTo a) (-87) (-88) (by decide)
    unfold addMailRecipients; steps [addLog_steps, ih]

theorem recipientsLoop_tuned (l) : Steps env KeepsTuned (recipientsLoop l) := by
  induction l with
  | nil => unfold recipientsLoop; steps []
  | cons a l ih => unfold recipientsLoop; steps [arrElems_steps, addMailRecipients_tuned]

theorem content_tuned (d e) : Steps env KeepsTuned (sendPtr .content d e) := sendPtr_steps (fun s c r => Silent.content s c _ r) e

theorem sendPieces_tuned (l) : Steps env KeepsTuned (sendPieces l) := by
  induction l with
  | nil => unfold sendPieces; steps []
  | cons a l ih => unfold sendPieces; steps [content_tuned]

theorem sendMailConnected_tuned (m) : Steps env KeepsTuned (sendMailConnected m) := by
  have h1 := sendPtrFb_tuned (env := env) dataCmd (-89) (-90) (by decide)
  have h2 := sendPtrFb_tuned (env := env) endOfData (-97) (-98) (by decide)
  unfold sendMailConnected sendMailRest setMailRecipients setMailHeaders addressHeader addMailHeader setMailBody sendBodyText
  steps [Steps.modify, mailFromLoop_tuned, recipientsLoop_tuned, addLog_steps, content_tuned, arrElems_steps, fullBody_steps, sendPieces_tuned,
    sendQuit_steps, cleanup_steps]

theorem sendMail_tuned (m) : Steps env KeepsTuned (sendMail m) := by
  unfold sendMail
  steps [establish_tuned, sendMailConnected_tuned]

theorem doCall_tuned (c) : Steps env KeepsTuned (doCall c) := by
  have : Steps env KeepsTuned (M.emit (.call c)) := Steps.emit fun s => keepsTuned_snoc (s := s) (e := .call c) (by intro _ _ h; cases h)
  unfold doCall setServerName setKeepUsingBase
  steps [sendMail_tuned, Steps.modify]

theorem life_tuned (cs) : Steps env KeepsTuned (life cs) := by
  have : ∀ cs, Steps env KeepsTuned (runCalls cs) := by
    intro cs
    induction cs with
    | nil => unfold runCalls; steps []
    | cons c cs ih => unfold runCalls; steps [doCall_tuned]
  unfold life destroy
  have hd : Steps env KeepsTuned (M.emit .destroy) := Steps.emit fun s => keepsTuned_snoc (s := s) (e := .destroy) (by intro _ _ h; cases h)
  steps [this, cleanup_steps]

end Verif.Proofs
