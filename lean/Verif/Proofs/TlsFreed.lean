import Verif.Proofs.Leaks
import Verif.Proofs.Private
/-!
# Which TLS connections are freed
-/
namespace Verif.Proofs
open Verif Verif.Model Verif.Spec

variable {α : Type} {env : Env} {B : Prop}

/-- Every TLS connection was freed, is the client's own, or (if `B`) was followed by another one. -/
def Care (B : Prop) (s : St) : Prop :=
  ∀ a b r, s.hist = a ++ .tls .bioNew r :: b → r ≠ 0 →
    .bioFree a.length ∈ b ∨ (∃ x, s.client.bio = some x ∧ x.id = a.length) ∨ (B ∧ ∃ r', .tls .bioNew r' ∈ b)

theorem Care.client {s : St} {c : Client} {m : List SessionOp} (h : Care B s) (h1 : c.bio = s.client.bio) : Care B { s with client := c, mem := m } := by
  intro a b r e hr
  show _ ∨ (∃ x, c.bio = _ ∧ _) ∨ _
  rw [h1]; exact h a b r e hr

/-- Any event that is not about making a TLS connection. -/
theorem Care.event {s : St} {e : Ev} (h : Care B s) (he : ∀ r, e ≠ .tls .bioNew r) : Care B (St.snoc s e) := by
  intro a b r eq hr
  rcases snoc_split (h := s.hist) eq with ⟨_, h2, _⟩ | ⟨b', h1, rfl⟩
  · exact absurd h2 (he r)
  · rcases h a b' r h1 hr with h | h | ⟨hB, r', h⟩
    · exact .inl (by simp [h])
    · exact .inr (.inl h)
    · exact .inr (.inr ⟨hB, r', by simp [h]⟩)

/-- Freeing the client's connection. -/
theorem Care.freed {s : St} {x : Bio} {c : Client} (h : Care B s) (hx : s.client.bio = some x) :
    Care B { s with client := c, hist := s.hist ++ [.bioFree x.id] } := by
  intro a b r eq hr
  rcases snoc_split (h := s.hist) eq with ⟨_, h2, _⟩ | ⟨b', h1, rfl⟩
  · cases h2
  · rcases h a b' r h1 hr with h | ⟨y, hy, h⟩ | ⟨hB, r', h⟩
    · exact .inl (by simp [h])
    · rw [hx] at hy
      injection hy with hy
      subst hy
      exact .inl (by simp [h])
    · exact .inr (.inr ⟨hB, r', by simp [h]⟩)

theorem Care.noBio {s : St} {c : Client} (h : Care B s) (hx : s.client.bio = none) : Care B { s with client := c } := by
  intro a b r eq hr
  rcases h a b r eq hr with h | ⟨y, hy, h⟩ | h
  · exact .inl h
  · rw [hx] at hy; cases hy
  · exact .inr (.inr h)

theorem Care.closed {s : St} (h : Care B s) : Care B { s with client := closedClient s.client, hist := s.hist ++ closingEvs s.client } := by
  have step : ∀ (h : Hist) (m : List SessionOp) (c : Client) (fd : Int), Care B { client := c, hist := h, mem := m } →
      Care B { client := c, hist := h ++ (if fd ≠ 0 then [.close fd] else []), mem := m } := by
    intro h m c fd hc
    split
    · exact hc.event (e := .close fd) nofun
    · rw [List.append_nil]; exact hc
  unfold closingEvs
  rw [← List.append_assoc]
  refine step _ _ _ _ ?_
  unfold closedClient
  by_cases hk : s.client.kind = .smtp
  · simp only [hk, if_true, List.append_nil]
    exact h.client rfl
  · simp only [hk, if_false]
    cases hb : s.client.bio with
    | none => simp only [List.append_nil]; exact h.noBio hb
    | some x => exact h.freed hb

theorem care_whole : WholeMail (Pres (Care B)) where
  refl := fun _ h => h
  trans := fun h h' x => h' (h x)
  log := fun _ _ _ _ _ _ _ h => h.client rfl
  errno := fun _ _ h => h.client rfl
  resp := fun _ _ h => h.client rfl
  auth := fun _ _ h => h.client rfl
  fcntlGet := fun _ _ _ h => h.event nofun
  fcntlSet := fun _ _ _ _ h => h.event nofun
  select := fun _ _ _ h => h.event nofun
  sockopt := fun _ _ _ h => h.event nofun
  resolve := fun _ _ _ h => h.event nofun
  connect := fun _ _ _ _ h => h.event nofun
  readFile := fun _ _ _ h => h.event nofun
  sleep := fun _ h => h.event nofun
  recv := fun _ _ _ h => h.event nofun
  send := fun _ _ _ _ _ h => h.event nofun
  closed := fun _ h => h.closed
  connected := fun _ h => h.client rfl

/-- A new connection takes the place of the old one. -/
theorem Care.made {s : St} {r : Int} {c : Client} (h : Care B s) (hB : B ∨ s.client.bio = none) (hc : r ≠ 0 → ∃ x, c.bio = some x ∧ x.id = s.hist.length) :
    Care B { s with client := c, hist := s.hist ++ [.tls .bioNew r] } := by
  intro a b r' eq hr
  rcases snoc_split (h := s.hist) eq with ⟨h1, h2, rfl⟩ | ⟨b', h1, rfl⟩
  · injection h2 with _ h2
    subst h2 h1
    exact .inr (.inl (hc hr))
  · rcases hB with hB | hB
    · exact .inr (.inr ⟨hB, r, by simp⟩)
    · rcases h a b' r' h1 hr with h | ⟨y, hy, h⟩ | ⟨hB, r', h⟩
      · exact .inl (by simp [h])
      · rw [hB] at hy; cases hy
      · exact .inr (.inr ⟨hB, r', by simp [h]⟩)

theorem care_init : Steps env (Pres (Care B)) initializeSession := by
  have := care_whole (B := B)
  have sock : Steps env (Pres (Care B)) sysSocket := Steps.ask fun _ _ h => h.event nofun
  have set : ∀ v, Steps env (Pres (Care B)) (M.modify ({ · with sock := v })) := fun v => Steps.modify fun _ h => h.client rfl
  unfold initializeSession initializePOSIX
  steps [Steps.modifyMem, sock, set, logErrno_steps, sysResolve_steps, setNonBlocking_steps, addLog_steps, connectPOSIX_steps]

/-- Nothing is lost when a new connection is made now. -/
def Spare (B : Prop) (s : St) : Prop := Care B s ∧ (B ∨ s.client.bio = none)

theorem Spare.keep {s s' : St} (h : Spare B s) (h1 : Care B s → Care B s') (h2 : s.client.bio = none → s'.client.bio = none) : Spare B s' :=
  ⟨h1 h.1, h.2.imp id h2⟩

theorem spare_whole : WholeMail (Pres (Spare B)) where
  refl := fun _ h => h
  trans := fun h h' x => h' (h x)
  log := fun _ _ _ _ _ _ _ h => h.keep (·.client rfl) id
  errno := fun _ _ h => h.keep (·.client rfl) id
  resp := fun _ _ h => h.keep (·.client rfl) id
  auth := fun _ _ h => h.keep (·.client rfl) id
  fcntlGet := fun _ _ _ h => h.keep (·.event nofun) id
  fcntlSet := fun _ _ _ _ h => h.keep (·.event nofun) id
  select := fun _ _ _ h => h.keep (·.event nofun) id
  sockopt := fun _ _ _ h => h.keep (·.event nofun) id
  resolve := fun _ _ _ h => h.keep (·.event nofun) id
  connect := fun _ _ _ _ h => h.keep (·.event nofun) id
  readFile := fun _ _ _ h => h.keep (·.event nofun) id
  sleep := fun _ h => h.keep (·.event nofun) id
  recv := fun _ _ _ h => h.keep (·.event nofun) id
  send := fun _ _ _ _ _ h => h.keep (·.event nofun) id
  closed := fun s h => h.keep (·.closed) fun h => by show (closedClient s.client).bio = none; unfold closedClient; split <;> simp [h]
  connected := fun _ h => h.keep (·.client rfl) id

theorem spare_init : Steps env (Pres (Spare B)) initializeSession := by
  have := spare_whole (B := B)
  have sock : Steps env (Pres (Spare B)) sysSocket := Steps.ask fun _ _ h => h.keep (·.event nofun) id
  have set : ∀ v, Steps env (Pres (Spare B)) (M.modify ({ · with sock := v })) := fun v => Steps.modify fun _ h => h.keep (·.client rfl) id
  unfold initializeSession initializePOSIX
  steps [Steps.modifyMem, sock, set, logErrno_steps, sysResolve_steps, setNonBlocking_steps, addLog_steps, connectPOSIX_steps]

/-- First a part that makes no connection, then the rest. -/
theorem spare_then {β : Type} {m : M β} {f : β → M α} (hm : Steps env (Pres (Spare B)) m) (s : St) (h : Spare B s)
    (hf : ∀ a s, Spare B s → wp env (f a) (fun _ => Care B) (fun _ => Care B) s) : wp env (m >>= f) (fun _ => Care B) (fun _ => Care B) s := by
  rw [wp_bind]
  exact wp_mono (Pres.use hm h) (fun a s h => hf a s h) (fun _ _ h => h.1)

/-- The negotiation, where another connection may be overwritten or there is none. -/
theorem care_tls (s : St) (h : Spare B s) : wp env startTLSNegotiation (fun _ => Care B) (fun _ => Care B) s := by
  have := care_whole (B := B)
  have := spare_whole (B := B)
  have call0 : Steps env (Pres (Spare B)) (sysTls .ctxNew) := Steps.ask fun _ _ h => h.keep (·.event nofun) id
  have ctx0 : ∀ b, Steps env (Pres (Spare B)) (M.modify ({ · with ctx := b })) := fun b => Steps.modify fun _ h => h.keep (·.client rfl) id
  have call : ∀ op, (op ≠ .bioNew) → Steps env (Pres (Care B)) (M.ask (fun e h => e.tls h op) (Ev.tls op)) :=
    fun op ho => Steps.ask fun _ _ h => h.event (by intro r e; injection e with e; exact ho e)
  have ctx : ∀ b, Steps env (Pres (Care B)) (M.modify ({ · with ctx := b })) := fun b => Steps.modify fun _ h => h.client rfl
  unfold startTLSNegotiation
  refine spare_then (addLog_steps _ _) s h fun _ s h => spare_then call0 s h fun r s h => ?_
  rw [wp_ite]
  refine ⟨fun _ => ?_, fun _ => ?_⟩
  · refine Pres.use (I := Care B) ?_ h.1
    steps [setErrNo_steps, ctx]
  · refine spare_then (ctx0 _) s h fun _ s h => ?_
    rw [wp_bind, wp_histLength]
    unfold sysTls
    rw [wp_bind, wp_ask, wp_ite]
    refine ⟨fun h0 => ?_, fun h0 => ?_⟩
    · rw [wp_bind, wp_modify]
      exact h.1.made h.2 fun hr => absurd h0 hr
    · rw [wp_bind, wp_gets, wp_bind, wp_modify]
      refine Pres.use (I := Care B) ?_ (h.1.made h.2 fun _ => ⟨_, rfl, rfl⟩)
      have c1 := call .verifyPaths nofun
      have c2 := fun id => call (.connect id) nofun
      have c3 := fun id => call (.handshake id) nofun
      have c4 := fun id => call (.peerCert id) nofun
      have c5 := fun id => call (.verifyResult id) nofun
      steps [addLog_steps, setErrNo_steps, c1, c2, c3, c4, c5, wh_cleanup]

theorem care_keep : Steps env (Pres (Care B)) (setKeepUsingBase true) := Steps.modify fun _ h => h.client rfl

theorem care_establish (s : St) (h : Spare B s) : wp env establish (fun _ => Care B) (fun _ => Care B) s := by
  have := care_whole (B := B)
  have := spare_whole (B := B)
  have tls_then : ∀ {f : Int → M Int} (s : St), Spare B s → (∀ a, Steps env (Pres (Care B)) (f a)) →
      wp env (startTLSNegotiation >>= f) (fun _ => Care B) (fun _ => Care B) s := by
    intro f s h hf
    rw [wp_bind]
    exact wp_mono (care_tls s h) (fun a s h => Pres.use (hf a) h) (fun _ _ h => h)
  have greeted : ∀ (rest : M Int), (∀ s, Spare B s → wp env rest (fun _ => Care B) (fun _ => Care B) s) → ∀ s, Spare B s →
      wp env (establishGreeted rest) (fun _ => Care B) (fun _ => Care B) s := by
    intro rest hr s h
    unfold establishGreeted sendServerIdentification
    refine spare_then checkServerGreetings_steps s h fun code s h => ?_
    rw [wp_ite]
    refine ⟨fun _ => h.1, fun _ => spare_then (wh_identify _ _) s h fun code s h => ?_⟩
    rw [wp_ite]
    exact ⟨fun _ => h.1, fun _ => hr s h⟩
  unfold establish
  refine spare_then spare_init s h fun code s h => ?_
  rw [wp_ite]
  refine ⟨fun _ => h.1, fun _ => ?_⟩
  rw [wp_bind, wp_gets]
  cases s.client.kind with
  | smtp => exact greeted _ (fun s h => Pres.use wh_authenticateIfNeeded h.1) s h
  | opportunistic =>
    refine greeted _ (fun s h => ?_) s h
    unfold establishOpportunistic upgradeToSecureConnection getServerSecureIdentification
    rw [wp_bind, wp_gets]
    cases isStartTLSSupported s.client.lastResponse with
    | error u => exact h.1
    | ok b =>
      cases b with
      | false =>
        refine Pres.use (I := Care B) ?_ h.1
        steps [addLog_steps, care_keep]
      | true =>
        dsimp only
        refine spare_then (addLog_steps _ _) s h fun _ s h => spare_then (Steps.bind (addLog_steps _ _) fun _ => wh_sendRawFb _ _ _) s h fun code s h => ?_
        rw [wp_ite]
        refine ⟨fun _ => h.1, fun _ => tls_then s h fun _ => ?_⟩
        steps [addLog_steps, wh_identify, wh_authenticateIfNeeded]
  | forced =>
    dsimp only
    unfold establishForced getServerSecureIdentification
    refine tls_then s h fun _ => ?_
    steps [addLog_steps, checkServerGreetings_steps, wh_identify, wh_authenticateIfNeeded]

/-- Connected, or without a TLS connection, or losses are allowed. -/
def Rest (B : Prop) (s : St) : Prop := B ∨ s.client.isConnected = true ∨ s.client.bio = none

/-- Connected, or without a TLS connection, in a client that has one. -/
def Still (s : St) : Prop := s.client.kind ≠ .smtp ∧ (s.client.isConnected = true ∨ s.client.bio = none)

theorem still_whole : WholeMail (Pres Still) where
  refl := fun _ h => h
  trans := fun h h' x => h' (h x)
  log := fun _ _ _ _ _ _ _ h => h
  errno := fun _ _ h => h
  resp := fun _ _ h => h
  auth := fun _ _ h => h
  fcntlGet := fun _ _ _ h => h
  fcntlSet := fun _ _ _ _ h => h
  select := fun _ _ _ h => h
  sockopt := fun _ _ _ h => h
  resolve := fun _ _ _ h => h
  connect := fun _ _ _ _ h => h
  readFile := fun _ _ _ h => h
  sleep := fun _ h => h
  recv := fun _ _ _ h => h
  send := fun _ _ _ _ _ h => h
  closed := fun s h => ⟨by show (closedClient _).kind ≠ _; rw [closedClient_kind]; exact h.1, .inr (closedClient_bio h.1)⟩
  connected := fun _ h => ⟨h.1, .inl rfl⟩

theorem kind_lifelong : Lifelong (fun s s' : St => s'.client.kind = s.client.kind) :=
  { kind_anything with
    call := fun _ _ => rfl
    destroy := fun _ => rfl
    setKeep := fun _ _ => rfl
    serverName := fun _ _ => rfl
    port := fun _ _ => rfl
    batch := fun _ _ => rfl
    timeout := fun _ _ => rfl
    credential := fun _ _ => rfl
    accept := fun _ _ => rfl }

theorem same_kind (m : M α) (hm : Steps env (fun s s' : St => s'.client.kind = s.client.kind) m) {k : Kind} (s : St) (hk : s.client.kind = k) :
    wp env m (fun _ s' => s'.client.kind = k) (fun _ s' => s'.client.kind = k) s :=
  wp_mono (hm.run s) (fun _ _ h => h.trans hk) (fun _ _ h => h.trans hk)

theorem sendMail_care (m : Message) (s : St) (h : Care B s) (hs : Rest B s) (hk : s.client.kind ≠ .smtp) :
    wp env (sendMail m) (fun code s' => Care B s' ∧ s'.client.kind ≠ .smtp ∧ (code = 0 → Rest B s')) (fun _ => Care B) s := by
  have cw := care_whole (B := B)
  have sw := still_whole
  have ka := kind_anything
  have conn : ∀ s, Care B s → s.client.kind ≠ .smtp →
      wp env (sendMailConnected m) (fun code s' => Care B s' ∧ s'.client.kind ≠ .smtp ∧ (code = 0 → Rest B s')) (fun _ => Care B) s := by
    intro s h hk
    refine wp_mono (wp_and (Pres.use (wh_sendMailConnected m) h) (?_ : wp env (sendMailConnected m) (fun _ => Still) (fun _ => Still) s))
      (fun _ _ h => ⟨h.1, h.2.1, fun _ => .inr h.2.2⟩) (fun _ _ h => h.1)
    unfold sendMailConnected
    rw [wp_bind, wp_modify]
    refine Pres.use (I := Still) ?_ ⟨hk, .inl rfl⟩
    steps [wh_setMailRecipients, wh_sendMailRest]
  unfold sendMail
  rw [wp_bind, wp_gets, wp_ite]
  refine ⟨fun _ => conn s h hk, fun hc => ?_⟩
  rw [wp_bind]
  have hsp : Spare B s := ⟨h, hs.imp id fun h => h.resolve_left hc⟩
  refine wp_mono (wp_and (care_establish s hsp) (same_kind establish establish_steps s rfl)) ?_ (fun _ _ h => h.1)
  intro code s1 h1
  rw [wp_ite]
  have hk1 : s1.client.kind ≠ .smtp := by rw [h1.2]; exact hk
  exact ⟨fun hn => ⟨h1.1, hk1, fun h0 => absurd h0 hn⟩, fun _ => conn s1 h1.1 hk1⟩

theorem doCall_care (c : Call) (s : St) (h : Care B s) (hs : Rest B s) (hk : s.client.kind ≠ .smtp) :
    wp env (doCall c) (fun r s' => Care B s' ∧ s'.client.kind ≠ .smtp ∧ ((∀ code, r = .returned code → code = 0) → Rest B s')) (fun _ => Care B) s := by
  have ev : Care B (St.snoc s (.call c)) := h.event nofun
  unfold Model.doCall
  rw [wp_bind, wp_emit]
  cases c with
  | setServerName p =>
    dsimp only
    unfold setServerName
    cases checkName p with
    | error e => cases e <;> first | exact ⟨ev, hk, fun _ => hs⟩ | exact ev
    | ok name => exact ⟨ev.client rfl, hk, fun _ => hs⟩
  | sendMail m =>
    dsimp only
    rw [wp_bind]
    refine wp_mono (sendMail_care m _ ev hs hk) ?_ (fun _ _ h => h)
    intro code s1 h1
    exact ⟨h1.1, h1.2.1, fun hr => h1.2.2 (hr code rfl)⟩
  | _ => exact ⟨ev.client rfl, hk, fun _ => hs⟩

theorem runCalls_care (cs : List Call) (s : St) (h : Care B s) (hs : Rest B s) (hk : s.client.kind ≠ .smtp) :
    wp env (runCalls cs) (fun rs s' => s'.client.kind ≠ .smtp ∧ ((B ∨ ∀ code, .returned code ∈ rs → code = 0) → Care B s')) (fun _ _ => True) s := by
  induction cs generalizing s with
  | nil => exact ⟨hk, fun _ => h⟩
  | cons c cs ih =>
    unfold runCalls
    rw [wp_bind]
    refine wp_mono (doCall_care c s h hs hk) ?_ (fun _ _ _ => trivial)
    intro r s1 h1
    rw [wp_bind]
    by_cases hr : B ∨ ∀ code, r = .returned code → code = 0
    · have hs1 : Rest B s1 := hr.elim .inl h1.2.2
      refine wp_mono (ih s1 h1.1 hs1 h1.2.1) ?_ (fun _ _ _ => trivial)
      intro rs s2 h2
      exact ⟨h2.1, fun hall => h2.2 (hall.imp id fun h code hc => h code (by simp [hc]))⟩
    · have ka := kind_lifelong
      refine wp_mono (same_kind (k := s1.client.kind) (runCalls cs) (runCalls_steps cs) s1 rfl) ?_ (fun _ _ _ => trivial)
      intro rs s2 h2
      refine ⟨by rw [h2]; exact h1.2.1, fun hall => absurd (hall.imp id fun h code hc => ?_) hr⟩
      exact h code (by simp [hc])

/-- `cleanup` leaves no TLS connection. -/
theorem cleanup_noBio (s : St) (hk : s.client.kind ≠ .smtp) : wp env cleanup (fun _ s' => s'.client.bio = none) (fun _ _ => True) s := by
  have ka := kind_anything
  have close : ∀ s : St, s.client.kind ≠ .smtp → wp env closeSession (fun _ s' => s'.client.bio = none) (fun _ _ => True) s := by
    intro s hk
    unfold wp
    rw [closeSession_run]
    exact closedClient_bio hk
  unfold cleanup
  rw [wp_bind, wp_env]
  cases env.depth with
  | zero => trivial
  | succ n =>
    unfold cleanupN
    rw [wp_bind, wp_gets, wp_bind, wp_gets, wp_ite]
    refine ⟨fun _ => ?_, fun _ => close s hk⟩
    rw [wp_bind]
    refine wp_mono (same_kind (k := s.client.kind) (sendQuitWith (cleanupN n)) (sendQuitWith_steps (cleanupN_steps n)) s rfl) ?_ (fun _ _ _ => trivial)
    intro _ s1 h1
    exact close s1 (by rw [h1]; exact hk)

/-- At the end of a life every TLS connection was freed or followed by another one. -/
theorem life_care (cs : List Call) (s : St) (h : Care B s) (hs : Rest B s) (hk : s.client.kind ≠ .smtp) :
    wp env (life cs) (fun rs s' => (B ∨ ∀ code, .returned code ∈ rs → code = 0) → Care B s' ∧ s'.client.bio = none) (fun _ _ => True) s := by
  have cw := care_whole (B := B)
  unfold life destroy
  rw [wp_bind]
  refine wp_mono (runCalls_care cs s h hs hk) ?_ (fun _ _ _ => trivial)
  intro rs s1 h1
  rw [wp_bind, wp_bind, wp_emit]
  by_cases hall : B ∨ ∀ code, .returned code ∈ rs → code = 0
  · refine wp_mono (wp_and (Pres.use (I := Care B) wh_cleanup ((h1.2 hall).event (e := .destroy) nofun)) (cleanup_noBio _ h1.1)) ?_ (fun _ _ _ => trivial)
    exact fun _ _ h _ => h
  · refine wp_mono (m := cleanup) (Q := fun _ _ => True) (E := fun _ _ => True) (by unfold wp; split <;> trivial) ?_ (fun _ _ _ => trivial)
    exact fun _ _ _ h => absurd h hall

/-- A connection freed at most once and at least once. -/
theorem freed_exactly {h : Hist} (hf : FreesOnce h) {n : Nat} (hm : .bioFree n ∈ h) : timesFreed n h = 1 := by
  obtain ⟨a, b, rfl⟩ := List.append_of_mem hm
  have h1 := (hf a b n rfl).1
  have h2 : .bioFree n ∉ b := by
    intro hb
    obtain ⟨c, d, rfl⟩ := List.append_of_mem hb
    exact (hf (a ++ .bioFree n :: c) d n (by simp)).1 (by simp)
  have zero : ∀ l : Hist, .bioFree n ∉ l → l.countP (· == .bioFree n) = 0 := by
    intro l hl
    rw [List.countP_eq_zero]
    intro e he
    simp only [beq_iff_eq]
    rintro rfl
    exact hl he
  unfold timesFreed
  rw [List.countP_append, List.countP_cons, zero a h1, zero b h2]
  simp

end Verif.Proofs
