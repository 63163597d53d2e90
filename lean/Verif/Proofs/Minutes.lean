import Verif.Proofs.Transcript
import Verif.Proofs.Keeps
import Verif.Spec.Minutes
/-!
# The log records the conversation
-/
namespace Verif.Proofs.Minutes
open Verif Verif.Model Verif.Spec Verif.Proofs

variable {α β : Type} {env : Env}

/-! ### The specification, event by event -/

theorem minutes_snoc (h : Hist) (e : Ev) : minutes (h ++ [e]) = minutesStep (minutes h) e := by
  unfold minutes
  rw [List.foldl_append]
  rfl

/-- An event that has nothing to do with what is said. -/
def Mute (e : Ev) : Prop := ∀ t, minutesStep t e = { t with waited := 0 }

theorem minutes_mute {h evs : Hist} (he : ∀ e ∈ evs, Mute e) : minutes (h ++ evs) = minutes h ∨ minutes (h ++ evs) = { minutes h with waited := 0 } := by
  unfold minutes
  rw [List.foldl_append]
  generalize h.foldl minutesStep {} = t
  induction evs generalizing t with
  | nil => exact .inl rfl
  | cons e evs ih =>
    rw [List.foldl_cons, he e (by simp) t]
    exact .inr (by rcases ih (fun e h => he e (by simp [h])) { t with waited := 0 } with h | h <;> exact h)

/-- Nothing was read that is not yet a reply. -/
def Calm (t : Minutes) : Prop := t.parts = none ∨ t.parts = some none

theorem Calm.flush {t : Minutes} (h : Calm t) : t.flush = { t with waited := 0, parts := none } := by
  unfold Minutes.flush
  rcases h with h | h <;> rw [h]

/-- The log records the conversation and after it `p`; `n` commands are to be kept secret. With `i ≥ 1` no reply is being read; with `i = 2` the client
is not waiting either. -/
structure Tells (i n : Nat) (p : List (Bytes × Bytes)) (s : St) : Prop where
  out : ∃ l es, s.client.log = some l ∧ LogOk l ∧ l.content = logText es ∧ ((minutes s.hist).said ++ p).Sublist es
  secret : (minutes s.hist).secret = n
  limit : (minutes s.hist).limit = s.client.timeout
  calm : 1 ≤ i → Calm (minutes s.hist)
  still : 2 ≤ i → (minutes s.hist).waited = 0 ∧ (minutes s.hist).parts = none

section
variable {i n : Nat} {p : List (Bytes × Bytes)} {s : St}

theorem Tells.client (h : Tells i n p s) {c : Client} {m : List SessionOp} (hl : c.log = s.client.log) (ht : c.timeout = s.client.timeout) :
    Tells i n p { s with client := c, mem := m } :=
  ⟨by obtain ⟨l, es, h1, h2⟩ := h.out; exact ⟨l, es, hl.trans h1, h2⟩, h.secret, h.limit.trans ht.symm, h.calm, h.still⟩

theorem Tells.congr (h : Tells i n p s) {s' : St} (hc : s'.client = s.client) (ht : minutes s'.hist = { minutes s.hist with waited := 0 }) : Tells i n p s' := by
  obtain ⟨h1, h2, h3, h4, h5⟩ := h
  refine ⟨?_, ?_, ?_, ?_, ?_⟩ <;> rw [ht] <;> first | rw [hc]; assumption | assumption | exact fun hi => ⟨rfl, (h5 hi).2⟩

theorem Tells.event (h : Tells i n p s) {e : Ev} (he : Mute e) : Tells i n p (St.snoc s e) :=
  h.congr rfl (by show minutes (s.hist ++ [e]) = _; rw [minutes_snoc, he])

theorem Tells.drop (h : Tells i n p s) : Tells i n [] s := by
  obtain ⟨⟨l, es, h1, h2, h3, h4⟩, h5, h6, h7, h8⟩ := h
  exact ⟨⟨l, es, h1, h2, h3, by rw [List.append_nil]; exact (List.sublist_append_left _ _).trans h4⟩, h5, h6, h7, h8⟩

theorem Tells.down (h : Tells i n p s) {j : Nat} (hj : j ≤ i) : Tells j n p s :=
  ⟨h.out, h.secret, h.limit, fun h' => h.calm (Nat.le_trans h' hj), fun h' => h.still (Nat.le_trans h' hj)⟩

/-- With a log, adding to it always works. -/
theorem wp_addLog {Q : Unit → St → Prop} {E : Stop → St → Prop} {l : Log} (hl : s.client.log = some l) (ho : LogOk l) (d w : Bytes)
    (h : ∀ l' m, LogOk l' → l'.content = l.content ++ logText [(w, cstr d)] → Q () { s with client := { s.client with log := some l' }, mem := m }) :
    wp env (addLog d w) Q E s := by
  unfold addLog
  rw [wp_bind, wp_gets, hl]
  obtain ⟨l', e, _⟩ := log_add_ok ho d w
  obtain ⟨h1, h2⟩ := log_entry ho e
  simp only [e]
  rw [wp_modifyMem]
  exact h l' _ h1 h2

theorem tells_log (h : Tells i n p s) {l l' : Log} {m : List SessionOp} {w d : Bytes} (hl : s.client.log = some l) (ho : LogOk l')
    (hc : l'.content = l.content ++ logText [(w, cstr d)]) : Tells i n p { s with client := { s.client with log := some l' }, mem := m } := by
  obtain ⟨⟨l0, es, h1, h2, h3, h4⟩, h5, h6, h7, h8⟩ := h
  rw [hl] at h1
  cases h1
  exact ⟨⟨l', es ++ [(w, cstr d)], rfl, ho, by rw [hc, h3, logText_append], h4.trans (List.sublist_append_left _ _)⟩, h5, h6, h7, h8⟩

theorem tells_addLog' (d w : Bytes) : Steps env (Pres (Tells i n p)) (addLog d w) := by
  constructor
  intro s
  by_cases h : Tells i n p s
  · obtain ⟨l, es, h1, h2, _⟩ := h.out
    exact wp_addLog h1 h2 d w fun l' m ho hc _ => tells_log h h1 ho hc
  · unfold wp
    split <;> exact fun h' => absurd h' h

theorem tells_errno (e : Int) : Steps env (Pres (Tells i n p)) (setErrNo e) := Steps.modify fun _ h => h.client rfl rfl
theorem tells_resp (r : Bytes) : Steps env (Pres (Tells i n p)) (setLastServerResponse r) := Steps.modifyMem fun _ h => h.client rfl rfl

instance tells_preord : Preord (Pres (Tells i n p)) := ⟨fun _ h => h, fun h h' x => h' (h x)⟩

theorem tells_logErrno (e : Int) : Steps env (Pres (Tells i n p)) (logErrno e) := by
  unfold logErrno
  steps [tells_addLog', tells_errno]

/-- With `i = 1`. -/
instance tells_filing : Filing (Pres (Tells 1 n p)) where
  refl := fun _ h => h
  trans := fun h h' x => h' (h x)
  log := fun s l d w l' hl ha h => by
    obtain ⟨l0, es, h1, h2, _⟩ := h.out
    rw [hl] at h1
    cases h1
    obtain ⟨ho, hc⟩ := log_entry h2 ha
    exact tells_log h hl ho hc
  errno := fun _ _ h => h.client rfl rfl
  resp := fun _ _ h => h.client rfl rfl
  auth := fun _ _ h => h.client rfl rfl
  fcntlGet := by
    intro s fd r h
    have e : minutes (St.snoc s (.fcntlGet fd r)).hist = { minutes s.hist with waited := 0, parts := none } := by
      show minutes (s.hist ++ [_]) = _
      rw [minutes_snoc]
      exact (h.calm (by decide)).flush
    obtain ⟨h1, h2, h3, h4, h5⟩ := h
    refine ⟨?_, ?_, ?_, ?_, ?_⟩ <;> rw [e] <;> first | assumption | exact fun _ => .inl rfl | exact fun _ => ⟨rfl, rfl⟩
  fcntlSet := by
    intro s fd b r h
    cases b with
    | false => exact h.event fun _ => rfl
    | true =>
      have e : minutes (St.snoc s (.fcntlSet fd true r)).hist = { minutes s.hist with waited := 0, parts := some none } := by
        show minutes (s.hist ++ [_]) = _
        rw [minutes_snoc]
        rfl
      obtain ⟨h1, h2, h3, h4, h5⟩ := h
      refine ⟨?_, ?_, ?_, ?_, ?_⟩ <;> rw [e] <;> first | assumption | exact fun _ => .inr rfl | exact fun h => absurd h (by decide)
  select := fun _ _ _ h => h.event fun _ => rfl
  sockopt := fun _ _ _ h => h.event fun _ => rfl
  resolve := fun _ _ _ h => h.event fun _ => rfl
  connect := fun _ _ _ _ h => h.event fun _ => rfl
  readFile := fun _ _ _ h => h.event fun _ => rfl

/-- What the client is about to say is put into the log. -/
theorem tells_addLog (d : Bytes) (h : Tells i n [] s) {E : Stop → St → Prop} : wp env (addLog d) (fun _ => Tells i n [(b!"c", cstr d)]) E s := by
  obtain ⟨⟨l, es, h1, h2, h3, h4⟩, h5, h6, h7, h8⟩ := h
  refine wp_addLog h1 h2 d _ fun l' m ho hc => ?_
  refine ⟨⟨l', es ++ [(b!"c", cstr d)], rfl, ho, by rw [hc, h3, logText_append], ?_⟩, h5, h6, h7, h8⟩
  rw [List.append_nil] at h4
  exact h4.append (List.Sublist.refl _)

/-- A command is sent, after it was logged or when it is secret. -/
theorem Tells.say (h : Tells i n p s) {k : SendKind} {c : Chan} {d : Bytes} {r : SendRes} (hk : k ≠ .content) (hp : n = 0 → p = [(b!"c", masked d)]) :
    Tells i (nextSecret d n) [] (St.snoc s (.send k c d r)) := by
  obtain ⟨⟨l, es, h1, h2, h3, h4⟩, h5, h6, h7, h8⟩ := h
  have e : minutes (St.snoc s (.send k c d r)).hist = (minutes s.hist).client d := by
    show minutes (s.hist ++ [_]) = _
    rw [minutes_snoc]
    cases k <;> first | rfl | exact absurd rfl hk
  revert h4 h5 h6 h7 h8 e
  generalize minutes s.hist = t
  intro h5 h6 h7 h8 h4 e
  cases n with
  | zero =>
    rw [Minutes.client, h5] at e
    rw [hp rfl] at h4
    refine ⟨⟨l, es, h1, h2, h3, ?_⟩, ?_, ?_, ?_, ?_⟩ <;> rw [e]
    · simpa using h4
    · rfl
    · exact h6
    · exact h7
    · exact fun hi => ⟨rfl, (h8 hi).2⟩
  | succ n =>
    rw [Minutes.client, h5] at e
    refine ⟨⟨l, es, h1, h2, h3, ?_⟩, ?_, ?_, ?_, ?_⟩ <;> rw [e]
    · rw [List.append_nil]; exact (List.sublist_append_left _ _).trans h4
    · rfl
    · exact h6
    · exact h7
    · exact fun hi => ⟨rfl, (h8 hi).2⟩

end

/-- The log records the conversation; `z` says that the client is not busy and nothing is to be kept secret. -/
def Telling (z : Bool) (s : St) : Prop := ∃ n, Tells (if z then 2 else 1) n [] s ∧ (z = true → n = 0)

/-- The log records the conversation, also when the client stopped at some point. -/
def Ended (s : St) : Prop := ∃ n, Tells 0 n [] s

theorem Telling.fine {s : St} (h : Telling true s) : Tells 2 0 [] s := by
  obtain ⟨n, h, hn⟩ := h
  exact hn rfl ▸ h

theorem Tells.ended {i n : Nat} {p : List (Bytes × Bytes)} {s : St} (h : Tells i n p s) : Ended s := ⟨n, h.drop.down (Nat.zero_le _)⟩

theorem Tells.telling {s : St} {p : List (Bytes × Bytes)} {z : Bool} (h : Tells 2 0 p s) : Telling z s :=
  ⟨0, h.drop.down (by cases z <;> decide), fun _ => rfl⟩

theorem Tells.busy {s : St} {i n : Nat} {p : List (Bytes × Bytes)} (h : Tells i n p s) (hi : 1 ≤ i) : Telling false s := ⟨n, h.drop.down hi, nofun⟩

theorem Telling.weak {s : St} {z : Bool} (h : Telling z s) : Telling false s := by
  obtain ⟨n, h, _⟩ := h
  exact ⟨n, h.down (by cases z <;> decide), nofun⟩

theorem Telling.ended {s : St} {z : Bool} (h : Telling z s) : Ended s := by
  obtain ⟨n, h, _⟩ := h
  exact h.ended

theorem Telling.client {s : St} {z : Bool} (h : Telling z s) {c : Client} {m : List SessionOp} (hl : c.log = s.client.log) (ht : c.timeout = s.client.timeout) :
    Telling z { s with client := c, mem := m } := by
  obtain ⟨n, h, hn⟩ := h
  exact ⟨n, h.client hl ht, hn⟩

theorem Telling.event {s : St} {z : Bool} (h : Telling z s) {e : Ev} (he : Mute e) : Telling z (St.snoc s e) := by
  obtain ⟨n, h, hn⟩ := h
  exact ⟨n, h.event he, hn⟩

theorem telling_addLog {z : Bool} (d w : Bytes) : Steps env (Pres (Telling z)) (addLog d w) := by
  constructor
  intro s
  by_cases h : Telling z s
  · obtain ⟨n, h, hn⟩ := h
    exact wp_mono (Pres.use (tells_addLog' d w) h) (fun _ _ h _ => ⟨n, h, hn⟩) (fun _ _ h _ => ⟨n, h, hn⟩)
  · unfold wp
    split <;> exact fun h' => absurd h' h

theorem telling_errno {z : Bool} (e : Int) : Steps env (Pres (Telling z)) (setErrNo e) := Steps.modify fun _ h => h.client rfl rfl

instance telling_preord {z : Bool} : Preord (Pres (Telling z)) := ⟨fun _ h => h, fun h h' x => h' (h x)⟩

/-! ### Sending -/

/-- The command was logged, or is secret; and when nothing is secret it is not the beginning of a login. -/
structure Spoken (z : Bool) (n : Nat) (p : List (Bytes × Bytes)) (d : Bytes) : Prop where
  logged : n = 0 → p = [(b!"c", masked (cstr d))]
  plain : z = true → n = 0 ∧ cstr d ≠ b!"AUTH LOGIN\r\n"

section
variable {z : Bool} {i n : Nat} {p : List (Bytes × Bytes)} {d : Bytes} {s : St} {onFail : M Unit} {k : SendKind}

theorem Spoken.next (h : Spoken z n p d) (hz : z = true) : nextSecret (cstr d) n = 0 := by
  obtain ⟨h1, h2⟩ := h.plain hz
  subst h1
  simp [nextSecret, h2]

theorem Spoken.telling (h : Spoken z n p d) (hi : (if z then 2 else 1) ≤ i) (ht : Tells i (nextSecret (cstr d) n) [] s) : Telling z s :=
  ⟨_, ht.down hi, fun hz => h.next hz⟩

/-- How sending a command ends. -/
def Says' (z : Bool) (i n : Nat) (d : Bytes) (err : Int) (c : Int) (s : St) : Prop :=
  (c = err ∧ Telling z s) ∨ (c = 0 ∧ Tells i (nextSecret (cstr d) n) [] s)

theorem tells_raw (hi : (if z then 2 else 1) ≤ i) (hf : ∀ s, Telling z s → wp env onFail (fun _ => Telling z) (fun _ => Telling z) s) (hk : k ≠ .content) (h : Tells i n p s)
    (hs : Spoken z n p d) (err : Int) : wp env (sendRawWith onFail k d err) (Says' z i n d err) (fun _ => Telling z) s := by
  unfold sendRawWith sysSend
  rw [wp_bind, wp_gets, wp_bind, wp_bind, wp_ask]
  generalize normSend _ _ _ = r
  have hs1 := h.say (c := .raw s.client.sock) (r := r) hk hs.logged
  rw [wp_ite]
  refine ⟨fun _ => hs.telling hi hs1, fun _ => ?_⟩
  rw [wp_pure]
  cases r with
  | fail e =>
    dsimp only
    rw [wp_bind]
    refine wp_mono (Pres.use (telling_errno e) (hs.telling hi hs1)) (fun _ s2 h2 => ?_) (fun _ _ h => h)
    rw [wp_bind]
    exact wp_mono (hf s2 h2) (fun _ _ h => .inl ⟨rfl, h⟩) (fun _ _ h => h)
  | sent m => exact .inr ⟨rfl, hs1⟩
  | never => exact .inr ⟨rfl, hs1⟩

theorem tells_bio (hi : (if z then 2 else 1) ≤ i) (hf : ∀ s, Telling z s → wp env onFail (fun _ => Telling z) (fun _ => Telling z) s) (hk : k ≠ .content) (h : Tells i n p s)
    (hs : Spoken z n p d) (err : Int) : wp env (sendBioWith onFail k d err) (Says' z i n d err) (fun _ => Telling z) s := by
  have failed : ∀ (x : Int) (s2 : St), Telling z s2 → wp env (do setErrNo x; onFail; pure err : M Int) (Says' z i n d err) (fun _ => Telling z) s2 := by
    intro x s2 h2
    rw [wp_bind]
    refine wp_mono (Pres.use (telling_errno x) h2) (fun _ s2 h2 => ?_) (fun _ _ h => h)
    rw [wp_bind]
    exact wp_mono (hf s2 h2) (fun _ _ h => .inl ⟨rfl, h⟩) (fun _ _ h => h)
  unfold sendBioWith sysSend
  rw [wp_bind, wp_gets]
  cases s.client.bio with
  | none =>
    dsimp only
    rw [wp_bind, wp_ask']
    exact failed _ _ ⟨n, h.drop.down hi, fun hz => (hs.plain hz).1⟩
  | some b =>
    dsimp only
    rw [wp_bind, wp_bind, wp_ask]
    generalize normSend _ _ _ = r
    have hs1 := h.say (c := .tls b.id b.fd) (r := r) hk hs.logged
    rw [wp_ite]
    refine ⟨fun _ => hs.telling hi hs1, fun _ => ?_⟩
    rw [wp_pure]
    cases r with
    | fail e =>
      dsimp only
      rw [wp_bind, wp_ask']
      exact failed _ _ (hs.telling hi hs1)
    | sent m => exact .inr ⟨rfl, hs1⟩
    | never => exact .inr ⟨rfl, hs1⟩

theorem tells_ptr (hi : (if z then 2 else 1) ≤ i) (hf : ∀ s, Telling z s → wp env onFail (fun _ => Telling z) (fun _ => Telling z) s) (hk : k ≠ .content) (h : Tells i n p s)
    (hs : Spoken z n p d) (err : Int) : wp env (sendPtrWith onFail k d err) (Says' z i n d err) (fun _ => Telling z) s := by
  unfold sendPtrWith
  rw [wp_bind, wp_gets, wp_bind, wp_gets, wp_ite]
  exact ⟨fun _ => tells_raw hi hf hk h hs err, fun _ => tells_bio hi hf hk h hs err⟩

end

theorem closing_mute (c : Client) : ∀ e ∈ closingEvs c, Mute e := by
  intro e he t
  unfold closingEvs at he
  rcases List.mem_append.mp he with he | he
  · split at he
    · simp at he
    · split at he <;> simp at he
      subst he; rfl
  · split at he <;> simp at he
    subst he; rfl

theorem closedClient_timeout (c : Client) : (closedClient c).timeout = c.timeout := by unfold closedClient; split <;> rfl

theorem telling_close {z : Bool} (s : St) (h : Telling z s) : wp env closeSession (fun _ => Telling z) (fun _ => Telling z) s := by
  unfold wp
  rw [closeSession_run]
  have h2 : Telling z { s with hist := s.hist ++ closingEvs s.client } := by
    obtain ⟨n, h, hn⟩ := h
    refine ⟨n, ?_, hn⟩
    rcases minutes_mute (h := s.hist) (closing_mute s.client) with e | e
    · obtain ⟨h1, h2, h3, h4, h5⟩ := h
      refine ⟨?_, ?_, ?_, ?_, ?_⟩ <;> dsimp only <;> rw [e] <;> assumption
    · exact h.congr rfl e
  exact h2.client (closedClient_log _) (closedClient_timeout _)

theorem telling_quitWith {z : Bool} {onFail : M Unit} (hf : ∀ s, Telling z s → wp env onFail (fun _ => Telling z) (fun _ => Telling z) s) (s : St) (h : Telling z s) :
    wp env (sendQuitWith onFail) (fun _ => Telling z) (fun _ => Telling z) s := by
  obtain ⟨n, h, hn⟩ := h
  unfold sendQuitWith
  rw [wp_bind]
  refine wp_mono (tells_addLog quitCmd h) (fun _ s1 h1 => ?_) (fun _ s1 h => h)
  have hs : Spoken z n [(b!"c", cstr quitCmd)] quitCmd := ⟨fun _ => by decide, fun hz => ⟨hn hz, by decide⟩⟩
  refine wp_mono (tells_ptr (Nat.le_refl _) hf (by decide) h1 hs (-99)) (fun _ s2 h2 => ?_) (fun _ _ h => h)
  rcases h2 with h2 | h2
  · exact h2.2
  · exact hs.telling (Nat.le_refl _) h2.2

theorem telling_cleanupN {z : Bool} (n : Nat) (s : St) (h : Telling z s) : wp env (cleanupN n) (fun _ => Telling z) (fun _ => Telling z) s := by
  induction n generalizing s with
  | zero => exact h
  | succ n ih =>
    unfold cleanupN
    rw [wp_bind, wp_gets, wp_bind, wp_gets, wp_ite]
    refine ⟨fun _ => ?_, fun _ => telling_close s h⟩
    rw [wp_bind]
    exact wp_mono (telling_quitWith ih s h) (fun _ s1 h1 => telling_close s1 h1) (fun _ _ h => h)

theorem telling_cleanup {z : Bool} : Steps env (Pres (Telling z)) cleanup := by
  constructor
  intro s
  unfold cleanup
  rw [wp_bind, wp_env]
  by_cases h : Telling z s
  · exact wp_mono (telling_cleanupN _ s h) (fun _ _ h _ => h) (fun _ _ h _ => h)
  · unfold wp
    split <;> exact fun h' => absurd h' h

theorem telling_quit {z : Bool} : Steps env (Pres (Telling z)) sendQuit := by
  constructor
  intro s
  by_cases h : Telling z s
  · exact wp_mono (telling_quitWith (fun s h => Pres.use telling_cleanup h) s h) (fun _ _ h _ => h) (fun _ _ h _ => h)
  · unfold wp
    split <;> exact fun h' => absurd h' h

/-- Content is not part of the conversation. -/
theorem telling_content {z : Bool} (d : Bytes) (e : Int) : Steps env (Pres (Telling z)) (sendPtr .content d e) := by
  unfold sendPtr sendPtrWith sendRawWith sendBioWith sysSend
  steps [telling_cleanup, telling_errno, Steps.ask]
  all_goals exact Telling.event ‹_› fun _ => rfl

/-! ### Reading -/

theorem not_mem_cstr (d : Bytes) : (0 : UInt8) ∉ cstr d := by
  intro h
  have := List.all_takeWhile (l := d) (p := fun x : UInt8 => decide (x ≠ 0))
  simpa using List.all_eq_true.mp this _ h

theorem cstr_whole {d : Bytes} (h : (0 : UInt8) ∉ d) : cstr d = d := by
  have := cstr_pre h []
  simpa [cstr] using this

/-- The last thing the server said is not yet in the log. -/
structure Owes (n : Nat) (x : Bytes) (s : St) : Prop where
  out : ∃ l es d, s.client.log = some l ∧ LogOk l ∧ l.content = logText es ∧ (minutes s.hist).said = d ++ [(b!"s", x)] ∧ d.Sublist es
  secret : (minutes s.hist).secret = n
  limit : (minutes s.hist).limit = s.client.timeout
  still : (minutes s.hist).waited = 0 ∧ (minutes s.hist).parts = none
  whole : (0 : UInt8) ∉ x

section
variable {n : Nat} {x : Bytes} {s : St}

theorem Owes.client (h : Owes n x s) {c : Client} {m : List SessionOp} (hl : c.log = s.client.log) (ht : c.timeout = s.client.timeout) :
    Owes n x { s with client := c, mem := m } :=
  ⟨by obtain ⟨l, es, d, h1, h2⟩ := h.out; exact ⟨l, es, d, hl.trans h1, h2⟩, h.secret, h.limit.trans ht.symm, h.still, h.whole⟩

theorem Owes.event (h : Owes n x s) {e : Ev} (he : Mute e) : Owes n x (St.snoc s e) := by
  have ht : minutes (St.snoc s e).hist = { minutes s.hist with waited := 0 } := by show minutes (s.hist ++ [e]) = _; rw [minutes_snoc, he]
  obtain ⟨h1, h2, h3, h4, h5⟩ := h
  refine ⟨?_, ?_, ?_, ?_, h5⟩ <;> rw [ht] <;> first | assumption | exact ⟨rfl, h4.2⟩

theorem owes_any (d w : Bytes) (h : Owes n x s) {E : Stop → St → Prop} : wp env (addLog d w) (fun _ => Owes n x) E s := by
  obtain ⟨⟨l, es, y, h1, h2, h3, h4, h5⟩, h6, h7, h8, h9⟩ := h
  exact wp_addLog h1 h2 d w fun l' m ho hc =>
    ⟨⟨l', es ++ [(w, cstr d)], y, rfl, ho, by rw [hc, h3, logText_append], h4, h5.trans (List.sublist_append_left _ _)⟩, h6, h7, h8, h9⟩

theorem owes_pay (h : Owes n x s) {E : Stop → St → Prop} : wp env (addLog x b!"s") (fun _ => Tells 2 n []) E s := by
  obtain ⟨⟨l, es, y, h1, h2, h3, h4, h5⟩, h6, h7, h8, h9⟩ := h
  refine wp_addLog h1 h2 x _ fun l' m ho hc => ?_
  refine ⟨⟨l', es ++ [(b!"s", cstr x)], rfl, ho, by rw [hc, h3, logText_append], ?_⟩, h6, h7, fun _ => .inl h8.2, fun _ => h8⟩
  show ((minutes s.hist).said ++ []).Sublist _
  rw [List.append_nil, h4, cstr_whole h9]
  exact h5.append (List.Sublist.refl _)

theorem owes_errno (e : Int) (h : Owes n x s) {E : Stop → St → Prop} : wp env (logErrno e) (fun _ => Owes n x) E s := by
  unfold logErrno setErrNo
  rw [wp_bind, wp_modify, wp_bind, wp_env]
  exact owes_any _ _ (h.client (c := { s.client with lastErrNo := e }) (m := s.mem) rfl rfl)

end

/-- A reply is read in parts. -/
structure Hears (t n : Nat) (acc : Bytes) (got : Bool) (s : St) : Prop where
  out : ∃ l es, s.client.log = some l ∧ LogOk l ∧ l.content = logText es ∧ (minutes s.hist).said.Sublist es
  secret : (minutes s.hist).secret = n
  limit : (minutes s.hist).limit = t
  time : s.client.timeout = t
  parts : (minutes s.hist).parts = some (if got then some acc else none)
  whole : (0 : UInt8) ∉ acc
  first : got = false → acc = []

section
variable {t n : Nat} {acc : Bytes} {got : Bool} {s : St}

theorem Hears.ended (h : Hears t n acc got s) : Ended s :=
  ⟨n, by simpa using h.out, h.secret, h.limit.trans h.time.symm, fun h => absurd h (by decide), fun h => absurd h (by decide)⟩

/-- The time spent waiting does not matter here. -/
theorem Hears.wait (h : Hears t n acc got s) {e : Ev} {w : Nat} (he : minutesStep (minutes s.hist) e = { minutes s.hist with waited := w }) :
    Hears t n acc got (St.snoc s e) := by
  have ht : minutes (St.snoc s e).hist = { minutes s.hist with waited := w } := by show minutes (s.hist ++ [e]) = _; rw [minutes_snoc, he]
  obtain ⟨h1, h2, h3, h4, h5, h6, h7⟩ := h
  refine ⟨?_, ?_, ?_, h4, ?_, h6, h7⟩ <;> rw [ht] <;> assumption

theorem idle_recv (m : Minutes) (c : Chan) (r : RecvRes) (hr : ∀ d, r ≠ .data d) : ∃ w, minutesStep m (.recv c r) = { m with waited := w } := by
  cases r with
  | data d => exact absurd rfl (hr d)
  | _ =>
    simp only [minutesStep]
    split
    · exact ⟨m.waited, rfl⟩
    · exact ⟨0, rfl⟩

theorem Hears.part (h : Hears t n acc got s) (c : Chan) (d : Bytes) : Hears t n (acc ++ cstr d) true (St.snoc s (.recv c (.data d))) := by
  obtain ⟨h1, h2, h3, h4, h5, h6, h7⟩ := h
  have ht : minutes (St.snoc s (.recv c (.data d))).hist = { minutes s.hist with waited := 0, parts := some (some (acc ++ cstr d)) } := by
    show minutes (s.hist ++ [_]) = _
    rw [minutes_snoc]
    simp only [minutesStep, Minutes.server, h5]
    cases got with
    | true => rfl
    | false => rw [h7 rfl]; rfl
  refine ⟨?_, ?_, ?_, h4, ?_, ?_, nofun⟩
  · rw [ht]; exact h1
  · rw [ht]; exact h2
  · rw [ht]; exact h3
  · rw [ht]; rfl
  · intro hm
    rcases List.mem_append.mp hm with hm | hm
    · exact h6 hm
    · exact not_mem_cstr d hm

theorem hears_loop (f w : Nat) (acc : Bytes) (got : Bool) (s : St) (h : Hears t n acc got s) :
    wp env (rawReplyLoop f w acc got) (fun r s' => Hears t n r.2.1 r.2.2 s' ∧ (r.2.2 = true ∨ t ≤ r.1)) (fun _ => Ended) s := by
  induction f generalizing w acc got s with
  | zero => exact h.ended
  | succ f ih =>
    unfold rawReplyLoop sysRecv
    rw [wp_bind, wp_gets, wp_bind, wp_gets, wp_bind, wp_bind, wp_ask, h.time]
    generalize normRecv _ _ = r
    have quiet : (∀ d, r ≠ .data d) → Hears t n acc got (St.snoc s (.recv (.raw s.client.sock) r)) := fun hr => by
      obtain ⟨w, hw⟩ := idle_recv (minutes s.hist) (.raw s.client.sock) r hr
      exact h.wait hw
    rw [wp_ite]
    refine ⟨fun hr => (quiet (by rw [hr]; nofun)).ended, fun _ => ?_⟩
    rw [wp_pure]
    have rest : ∀ s1, Hears t n acc got s1 → wp env (if r = .err ∧ got = true then pure (w, acc, got)
        else do
          sysSleep
          if w + 1 < t then rawReplyLoop f (w + 1) acc got else pure (w + 1, acc, got))
        (fun r s' => Hears t n r.2.1 r.2.2 s' ∧ (r.2.2 = true ∨ t ≤ r.1)) (fun _ => Ended) s1 := by
      intro s1 h1
      rw [wp_ite]
      refine ⟨fun hg => ⟨h1, .inl hg.2⟩, fun _ => ?_⟩
      unfold sysSleep
      rw [wp_bind, wp_emit]
      have h2 : Hears t n acc got (St.snoc s1 .sleep) := h1.wait rfl
      rw [wp_ite]
      exact ⟨fun _ => ih _ _ _ _ h2, fun hw => ⟨h2, .inr (by dsimp only; omega)⟩⟩
    cases r with
    | data d =>
      have h1 := h.part (.raw s.client.sock) d
      dsimp only
      rw [wp_ite]
      refine ⟨fun _ => h1.ended, fun _ => ?_⟩
      rw [wp_ite]
      exact ⟨fun _ => ih _ _ _ _ h1, fun _ => ⟨h1, .inl rfl⟩⟩
    | _ => exact rest _ (quiet nofun)

/-- After the loop: the reply, if there was one, is still to be written into the log. -/
structure Read (t n : Nat) (acc : Bytes) (got : Bool) (s : St) : Prop where
  time : s.client.timeout = t
  some : got = true → Owes n acc s
  none : got = false → Tells 2 n [] s

theorem Hears.read (h : Hears t n acc got s) (fd : Int) (r : SysRes) : Read t n acc got (St.snoc s (.fcntlGet fd r)) := by
  obtain ⟨⟨l, es, l1, l2, l3, l4⟩, h2, h3, h4, h5, h6, h7⟩ := h
  have ht : minutes (St.snoc s (.fcntlGet fd r)).hist = (minutes s.hist).flush := by
    show minutes (s.hist ++ [_]) = _
    rw [minutes_snoc]
    rfl
  refine ⟨h4, ?_, ?_⟩
  · rintro rfl
    rw [Minutes.flush, h5] at ht
    refine ⟨?_, ?_, ?_, ?_, h6⟩ <;> rw [ht]
    · exact ⟨l, es, _, l1, l2, l3, rfl, l4⟩
    · exact h2
    · exact h3.trans h4.symm
    · exact ⟨rfl, rfl⟩
  · rintro rfl
    rw [Minutes.flush, h5] at ht
    refine ⟨?_, ?_, ?_, ?_, ?_⟩ <;> rw [ht]
    · exact ⟨l, es, l1, l2, l3, by simpa using l4⟩
    · exact h2
    · exact h3.trans h4.symm
    · exact fun _ => .inl rfl
    · exact fun _ => ⟨rfl, rfl⟩

theorem Read.event (h : Read t n acc got s) {e : Ev} (he : Mute e) : Read t n acc got (St.snoc s e) :=
  ⟨h.time, fun hg => (h.some hg).event he, fun hg => (h.none hg).event he⟩

theorem read_errno (e : Int) (h : Read t n acc got s) {E : Stop → St → Prop} : wp env (logErrno e) (fun _ => Read t n acc got) E s := by
  have ht : wp env (logErrno e) (fun _ s' => s'.client.timeout = t) (fun _ _ => True) s := by
    unfold logErrno setErrNo addLog
    rw [wp_bind, wp_modify, wp_bind, wp_env, wp_bind, wp_gets]
    split
    · trivial
    · split
      · trivial
      · exact h.time
  cases got with
  | true =>
    refine wp_mono (wp_and ht (owes_errno (E := fun _ _ => False) e (h.some rfl))) (fun _ _ h => ⟨h.1, fun _ => h.2, nofun⟩) (fun _ _ h => h.2.elim)
  | false =>
    have : wp env (logErrno e) (fun _ => Tells 2 n []) (fun _ _ => False) s := by
      unfold logErrno setErrNo
      rw [wp_bind, wp_modify, wp_bind, wp_env]
      have h1 := (h.none rfl).client (c := { s.client with lastErrNo := e }) (m := s.mem) rfl rfl
      obtain ⟨l, es, h2, h3, _⟩ := h1.out
      exact wp_addLog h2 h3 _ _ fun l' m ho hc => tells_log h1 h2 ho hc
    exact wp_mono (wp_and ht this) (fun _ _ h => ⟨h.1, nofun, fun _ => h.2⟩) (fun _ _ h => h.2.elim)

theorem hears_blocking (h : Hears t n acc got s) {E : Stop → St → Prop} : wp env setBlocking (fun _ => Read t n acc got) E s := by
  unfold setBlocking sysFcntlGet sysFcntlSet
  rw [wp_bind, wp_gets, wp_bind, wp_ask]
  generalize env.fcntlGet _ _ = r
  have h1 := h.read s.client.sock r
  cases r with
  | err e =>
    dsimp only
    rw [wp_bind]
    exact read_errno e h1
  | ok =>
    dsimp only
    rw [wp_bind, wp_ask]
    generalize env.fcntlSet _ _ _ = r
    have h2 : Read t n acc got (St.snoc (St.snoc s (.fcntlGet s.client.sock .ok)) (.fcntlSet s.client.sock false r)) := h1.event fun _ => rfl
    cases r with
    | err e =>
      dsimp only
      rw [wp_bind]
      exact read_errno e h2
    | ok => exact h2

theorem tells_nonblocking (h : Tells 2 n [] s) : wp env setNonBlocking (fun _ => Hears s.client.timeout n [] false) (fun _ => Ended) s := by
  unfold setNonBlocking sysFcntlGet sysFcntlSet
  rw [wp_bind, wp_gets, wp_bind, wp_ask]
  generalize env.fcntlGet _ _ = r
  have h1 : Read s.client.timeout n [] false (St.snoc s (.fcntlGet s.client.sock r)) :=
    ⟨rfl, nofun, fun _ => h.congr rfl (by
      show minutes (s.hist ++ [_]) = _
      rw [minutes_snoc]
      show (minutes s.hist).flush = _
      rw [Calm.flush (h.calm (by decide))]
      have := (h.still (by decide)).2
      revert this
      cases minutes s.hist
      intro this
      dsimp only at this
      rw [this])⟩
  have start : ∀ {s1 : St} (fd : Int) (r : SysRes), Read s.client.timeout n [] false s1 → Hears s.client.timeout n [] false (St.snoc s1 (.fcntlSet fd true r)) := by
    intro s1 fd r h1
    obtain ⟨h2, _, h3⟩ := h1
    obtain ⟨h4, h5, h6, h7, h8⟩ := h3 rfl
    have ht : minutes (St.snoc s1 (.fcntlSet fd true r)).hist = { minutes s1.hist with waited := 0, parts := some none } := by
      show minutes (s1.hist ++ [_]) = _
      rw [minutes_snoc]
      rfl
    refine ⟨?_, ?_, ?_, h2, ?_, by simp, fun _ => rfl⟩ <;> rw [ht]
    · obtain ⟨l, es, a1, a2, a3, a4⟩ := h4
      exact ⟨l, es, a1, a2, a3, by simpa using a4⟩
    · exact h5
    · exact h6.trans h2
    · rfl
  have rest : ∀ s1 (sock : Int), Read s.client.timeout n [] false s1 → wp env (do
      match ← M.ask (fun e h => e.fcntlSet h sock true) (.fcntlSet sock true) with
      | .err e => do logErrno e; pure (-8)
      | .ok => pure 0 : M Int) (fun _ => Hears s.client.timeout n [] false) (fun _ => Ended) s1 := by
    intro s1 sock h1
    rw [wp_bind, wp_ask]
    generalize env.fcntlSet _ _ _ = r
    have h2 := start sock r h1
    cases r with
    | ok => exact h2
    | err e =>
      dsimp only
      rw [wp_bind]
      unfold logErrno setErrNo
      rw [wp_bind, wp_modify, wp_bind, wp_env]
      obtain ⟨⟨l, es, a1, a2, a3, a4⟩, a5, a6, a7, a8, a9, a10⟩ := h2
      exact wp_addLog (s := { s1 with client := { s1.client with lastErrNo := e }, hist := s1.hist ++ [.fcntlSet sock true (.err e)] }) a1 a2 _ _ fun l' m ho hc =>
        ⟨⟨l', es ++ [(_, _)], rfl, ho, by rw [hc, a3, logText_append], a4.trans (List.sublist_append_left _ _)⟩, a5, a6, a7, a8, a9, a10⟩
  rw [wp_bind]
  cases r with
  | ok => exact rest _ _ h1
  | err e =>
    simp only [logIfErr]
    exact wp_mono (read_errno e h1) (fun _ s1 h1 => rest s1 _ h1) (fun _ _ h => h)

theorem tells_getRaw (h : Tells 2 n [] s) : wp env getRawReply (fun _ => Tells 2 n []) (fun _ => Ended) s := by
  unfold getRawReply
  rw [wp_bind]
  refine wp_mono (tells_nonblocking h) (fun _ s1 h1 => ?_) (fun _ _ h => h)
  rw [wp_bind, wp_env, wp_bind]
  refine wp_mono (hears_loop _ _ _ _ s1 h1) (fun r s2 h2 => ?_) (fun _ _ h => h)
  obtain ⟨w, acc, got⟩ := r
  obtain ⟨h2, h3⟩ := h2
  dsimp only at h2 h3 ⊢
  rw [wp_bind]
  refine wp_mono (hears_blocking (E := fun _ => Ended) h2) (fun _ s3 h4 => ?_) (fun _ _ h => h)
  rw [wp_bind, wp_gets, wp_ite, h4.time]
  refine ⟨fun hw => ?_, fun hw => ?_⟩
  · have hg : got = true := by
      rcases h3 with h3 | h3
      · exact h3
      · rcases hw with hw | hw
        · omega
        · exact hw
    unfold setLastServerResponse
    rw [wp_bind, wp_modifyMem, wp_bind]
    exact wp_mono (owes_pay (E := fun _ => Ended) ((h4.some hg).client (c := { s3.client with lastResponse := some (cstr acc) }) (m := s3.mem ++ [.response (cstr acc)]) rfl rfl)) (fun _ _ h => h) (fun _ _ h => h)
  · have hg : got = false := by
      cases got with
      | false => rfl
      | true => exact absurd (Or.inr rfl) hw
    exact h4.none hg

end

/-! ### Waiting for a text -/

/-- The client has waited for `w` seconds. -/
structure Waiting (n w : Nat) (s : St) : Prop where
  tells : Tells 1 n [] s
  parts : (minutes s.hist).parts = none
  waited : (minutes s.hist).waited = w

section
variable {n w : Nat} {s : St}

theorem Tells.waiting (h : Tells 2 n [] s) : Waiting n 0 s := ⟨h.down (by decide), (h.still (by decide)).2, (h.still (by decide)).1⟩

theorem Waiting.sleep (h : Waiting n w s) : Waiting n (w + 1) (St.snoc s .sleep) := by
  have e : minutes (St.snoc s .sleep).hist = { minutes s.hist with waited := (minutes s.hist).waited + 1 } := by
    show minutes (s.hist ++ [_]) = _
    rw [minutes_snoc]
    rfl
  obtain ⟨⟨h1, h2, h3, h4, h5⟩, h6, h7⟩ := h
  refine ⟨⟨?_, ?_, ?_, ?_, fun h => absurd h (by decide)⟩, ?_, ?_⟩ <;> rw [e]
  · exact h1
  · exact h2
  · exact h3
  · exact h4
  · exact h6
  · dsimp only; rw [h7]

/-- What one look gives: a text in time is still to be logged; a text that is too late is forgotten; after a last look without a text the client gives up. -/
def Looked (n w : Nat) (r : RecvRes) (s : St) : Prop :=
  (∀ d, r = .data d → (w < s.client.timeout → Owes n (bufferText d) s) ∧ (s.client.timeout ≤ w → Tells 2 n [] s)) ∧
  ((∀ d, r ≠ .data d) → (w < s.client.timeout → Waiting n w s) ∧ (s.client.timeout ≤ w → Tells 2 n [] s))

theorem Waiting.look (h : Waiting n w s) (c : Chan) (r : RecvRes) : Looked n w r (St.snoc s (.recv c r)) := by
  obtain ⟨⟨⟨l, es, l1, l2, l3, l4⟩, h2, h3, h4, h5⟩, h6, h7⟩ := h
  have hw : (minutes s.hist).waited < (minutes s.hist).limit ↔ w < s.client.timeout := by rw [h7, h3]
  have gaveUp : minutes (St.snoc s (.recv c r)).hist = { minutes s.hist with waited := 0 } → Tells 2 n [] (St.snoc s (.recv c r)) := by
    intro e
    refine ⟨?_, ?_, ?_, ?_, ?_⟩ <;> rw [e]
    · exact ⟨l, es, l1, l2, l3, l4⟩
    · exact h2
    · exact h3
    · exact fun _ => .inl h6
    · exact fun _ => ⟨rfl, h6⟩
  refine ⟨?_, fun hr => ?_⟩
  · rintro d rfl
    have e : minutes (St.snoc s (.recv c (.data d))).hist = if (minutes s.hist).waited < (minutes s.hist).limit then
        { minutes s.hist with waited := 0, said := (minutes s.hist).said ++ [(b!"s", bufferText d)] } else { minutes s.hist with waited := 0 } := by
      show minutes (s.hist ++ [_]) = _
      rw [minutes_snoc]
      simp only [minutesStep, Minutes.server, h6]
      rfl
    refine ⟨fun hlt => ?_, fun hge => ?_⟩
    · rw [if_pos (hw.mpr hlt)] at e
      refine ⟨?_, ?_, ?_, ?_, not_mem_cstr _⟩ <;> rw [e]
      · exact ⟨l, es, _, l1, l2, l3, rfl, by simpa using l4⟩
      · exact h2
      · exact h3
      · exact ⟨rfl, h6⟩
    · rw [if_neg (fun hlt => absurd (hw.mp hlt) (Nat.not_lt.mpr hge))] at e
      exact gaveUp e
  · have e : minutes (St.snoc s (.recv c r)).hist = if (minutes s.hist).waited < (minutes s.hist).limit then minutes s.hist else { minutes s.hist with waited := 0 } := by
      show minutes (s.hist ++ [_]) = _
      rw [minutes_snoc]
      cases r with
      | data d => exact absurd rfl (hr d)
      | _ => rfl
    refine ⟨fun hlt => ?_, fun hge => ?_⟩
    · rw [if_pos (hw.mpr hlt)] at e
      refine ⟨⟨?_, ?_, ?_, ?_, fun h => absurd h (by decide)⟩, ?_, ?_⟩ <;> rw [e]
      · exact ⟨l, es, l1, l2, l3, l4⟩
      · exact h2
      · exact h3
      · exact h4
      · exact h6
      · exact h7
    · rw [if_neg (fun hlt => absurd (hw.mp hlt) (Nat.not_lt.mpr hge))] at e
      exact gaveUp e

theorem Owes.ended {x : Bytes} (h : Owes n x s) (hx : ∃ l es, s.client.log = some l ∧ LogOk l ∧ l.content = logText es ∧ (minutes s.hist).said.Sublist es) : Ended s :=
  ⟨n, by simpa using hx, h.secret, h.limit, fun h => absurd h (by decide), fun h => absurd h (by decide)⟩

/-- One look at the socket or at the TLS connection; without a TLS connection nothing happens. -/
def Look (env : Env) (b : Bool) (T : Nat) (read : M RecvRes) : Prop :=
  ∀ n w s, Waiting n w s → s.client.timeout = T → (b = true → s.client.bio ≠ none) →
    wp env read (fun r s' => (Looked n w r s' ∨ (b = false ∧ Waiting n w s' ∧ ∀ d, r ≠ .data d)) ∧ s'.client.timeout = T ∧ (b = true → s'.client.bio ≠ none)) (fun _ => Ended) s

theorem look_raw (b : Bool) (T : Nat) (sock : Int) : Look env b T (sysRecv (.raw sock)) := by
  intro n w s h ht hb
  unfold sysRecv
  rw [wp_bind, wp_ask, wp_ite]
  generalize normRecv _ _ = r
  have h1 := h.look (.raw sock) r
  refine ⟨fun hr => ?_, fun _ => ⟨.inl h1, ht, hb⟩⟩
  subst hr
  by_cases hw : w < s.client.timeout
  · exact ((h1.2 nofun).1 hw).tells.ended
  · exact ((h1.2 nofun).2 (Nat.le_of_not_lt hw)).ended

theorem look_bio (b : Bool) (T : Nat) : Look env b T bioRead := by
  intro n w s h ht hb
  unfold bioRead
  rw [wp_bind, wp_gets]
  cases hbio : s.client.bio with
  | none =>
    cases b with
    | true => exact absurd hbio (hb rfl)
    | false => exact ⟨.inr ⟨rfl, h, nofun⟩, ht, nofun⟩
  | some x =>
    dsimp only
    unfold sysRecv
    rw [wp_bind, wp_ask, wp_ite]
    generalize normRecv _ _ = r
    have h1 := h.look (.tls x.id x.fd) r
    refine ⟨fun hr => ?_, fun _ => ⟨.inl h1, ht, hb⟩⟩
    subst hr
    by_cases hw : w < s.client.timeout
    · exact ((h1.2 nofun).1 hw).tells.ended
    · exact ((h1.2 nofun).2 (Nat.le_of_not_lt hw)).ended

/-- How waiting ends. -/
def Waited (b : Bool) (n : Nat) (r : Option Bytes) (s : St) : Prop :=
  match r with
  | some d => Owes n (bufferText d) s
  | none => Tells 1 n [] s ∧ (b = true → Tells 2 n [] s)

theorem wait_loop {b : Bool} {T : Nat} {read : M RecvRes} (hr : Look env b T read) (k w : Nat) (hk : w + k = T) (s : St) (h : Waiting n w s) (ht : s.client.timeout = T)
    (hb : b = true → s.client.bio ≠ none) : wp env (waitLoop read k) (Waited b n) (fun _ => Ended) s := by
  induction k generalizing w s with
  | zero =>
    unfold waitLoop
    rw [wp_bind]
    refine wp_mono (hr n w s h ht hb) (fun r s1 h1 => ?_) (fun _ _ h => h)
    obtain ⟨h1 | ⟨hf, h1, _⟩, ht1, _⟩ := h1
    · have hw : s1.client.timeout ≤ w := by omega
      have h2 : Tells 2 n [] s1 := by
        by_cases hd : ∃ d, r = .data d
        · obtain ⟨d, hd⟩ := hd
          exact (h1.1 d hd).2 hw
        · exact (h1.2 fun d e => hd ⟨d, e⟩).2 hw
      exact ⟨h2.down (by decide), fun _ => h2⟩
    · exact ⟨h1.tells, fun hb => by rw [hf] at hb; cases hb⟩
  | succ k ih =>
    unfold waitLoop
    rw [wp_bind]
    refine wp_mono (hr n w s h ht hb) (fun r s1 h1 => ?_) (fun _ _ h => h)
    obtain ⟨h1, ht1, hb1⟩ := h1
    have hw : w < s1.client.timeout := by omega
    have again : Waiting n w s1 → wp env (do sysSleep; waitLoop read k) (Waited b n) (fun _ => Ended) s1 := by
      intro h2
      unfold sysSleep
      rw [wp_bind, wp_emit]
      exact ih (w + 1) (by omega) _ h2.sleep ht1 hb1
    cases r with
    | data d =>
      rcases h1 with h1 | ⟨_, _, h1⟩
      · exact (h1.1 d rfl).1 hw
      · exact absurd rfl (h1 d)
    | _ =>
      rcases h1 with h1 | ⟨_, h1, _⟩
      · exact again ((h1.2 nofun).1 hw)
      · exact again h1

theorem tells_getTls (h : Tells 2 n [] s) (b : Bool) (hb : b = true → s.client.bio ≠ none) :
    wp env getTlsReply (fun c s' => Tells 1 n [] s' ∧ (b = true ∨ c ≠ -1 → Tells 2 n [] s')) (fun _ => Ended) s := by
  unfold getTlsReply
  rw [wp_bind, wp_gets, wp_bind]
  refine wp_mono (wait_loop (look_bio b _) _ 0 (Nat.zero_add _) s h.waiting rfl hb) (fun r s1 h1 => ?_) (fun _ _ h => h)
  cases r with
  | none => exact ⟨h1.1, fun hc => h1.2 (hc.resolve_right fun hc => hc rfl)⟩
  | some d =>
    have h1 : Owes n (bufferText d) s1 := h1
    dsimp only
    unfold setLastServerResponse
    rw [wp_bind, wp_modifyMem, wp_bind]
    exact wp_mono (owes_pay (E := fun _ => Ended) (h1.client (c := { s1.client with lastResponse := some (cstr (bufferText d)) }) (m := s1.mem ++ [.response (cstr (bufferText d))]) rfl rfl))
      (fun _ _ h => ⟨h.down (by decide), fun _ => h⟩) (fun _ _ h => h)

theorem tells_greeting (h : Tells 2 n [] s) : wp env checkServerGreetings (fun c s' => Tells 1 n [] s' ∧ (0 ≤ c → Tells 2 n [] s')) (fun _ => Ended) s := by
  have result : ∀ r s1, Waited false n r s1 → wp env (greetingResult r) (fun c s' => Tells 1 n [] s' ∧ (0 ≤ c → Tells 2 n [] s')) (fun _ => Ended) s1 := by
    intro r s1 h1
    unfold greetingResult
    cases r with
    | none => exact ⟨h1.1, fun hc => absurd hc (by decide)⟩
    | some d =>
      dsimp only
      rw [wp_bind]
      refine wp_mono (owes_pay (E := fun _ => Ended) h1) (fun _ s2 h2 => ?_) (fun _ _ h => h)
      rw [wp_ite]
      refine ⟨fun _ => ?_, fun _ => ⟨h2.down (by decide), fun _ => h2⟩⟩
      rw [wp_bind]
      exact wp_mono (Pres.use (tells_addLog' _ _) h2) (fun _ _ h => ⟨h.down (by decide), fun _ => h⟩) (fun _ _ h => h.ended)
  unfold checkServerGreetings
  rw [wp_bind, wp_gets, wp_ite]
  refine ⟨fun _ => ?_, fun _ => ?_⟩
  · rw [wp_bind, wp_gets, wp_bind]
    exact wp_mono (wait_loop (look_bio false _) _ 0 (Nat.zero_add _) s h.waiting rfl nofun) result (fun _ _ h => h)
  · rw [wp_bind, wp_gets, wp_bind, wp_gets, wp_bind]
    exact wp_mono (wait_loop (look_raw false _ _) _ 0 (Nat.zero_add _) s h.waiting rfl nofun) result (fun _ _ h => h)

theorem tells_getReply (h : Tells 2 n [] s) : wp env getServerReply (fun c s' => Tells 1 n [] s' ∧ (c ≠ -1 → Tells 2 n [] s')) (fun _ => Ended) s := by
  unfold getServerReply
  rw [wp_bind, wp_gets, wp_ite]
  exact ⟨fun _ => wp_mono (tells_getRaw h) (fun _ _ h => ⟨h.down (by decide), fun _ => h⟩) (fun _ _ h => h),
    fun _ => wp_mono (tells_getTls h false nofun) (fun _ _ h => ⟨h.1, fun hc => h.2 (.inr hc)⟩) (fun _ _ h => h)⟩

end

/-! ### A command and its reply -/

section
variable {z : Bool} {n : Nat} {p : List (Bytes × Bytes)} {d : Bytes} {s : St} {e t : Int}

/-- How a command with its reply ends. -/
def Asked' (z : Bool) (n : Nat) (d : Bytes) (e t c : Int) (s : St) : Prop :=
  Telling z s ∧ (c ≠ e → c ≠ t → Tells 2 (nextSecret (cstr d) n) [] s)

theorem two_le (z : Bool) : (if z then 2 else 1) ≤ 2 := by cases z <;> decide

theorem tells_reply (hs : Spoken z n p d) {send reply : M Int} (he : e ≠ 0) (G : St → Prop)
    (h : wp env send (fun c s' => Says' z 2 n d e c s' ∧ (c = e ∨ G s')) (fun _ => Ended) s)
    (hr : ∀ q s, Tells 2 q [] s → G s → wp env reply (fun _ => Tells 2 q []) (fun _ => Ended) s) :
    wp env (do if (← send) ≠ 0 then pure e else do
            let code ← reply
            if code ≠ -1 then pure code else do cleanup; pure t) (Asked' z n d e t) (fun _ => Ended) s := by
  rw [wp_bind]
  refine wp_mono h (fun c s1 h1 => ?_) (fun _ _ h => h)
  rw [wp_ite]
  obtain ⟨⟨rfl, h1⟩ | ⟨rfl, h1⟩, hg⟩ := h1
  · exact ⟨fun _ => ⟨h1, fun h => absurd rfl h⟩, fun h => absurd he h⟩
  · refine ⟨fun h => absurd rfl h, fun _ => ?_⟩
    rw [wp_bind]
    refine wp_mono (hr _ _ h1 (hg.resolve_left fun h => he h.symm)) (fun code s2 h2 => ?_) (fun _ _ h => h)
    rw [wp_ite]
    refine ⟨fun _ => ⟨hs.telling (two_le z) h2, fun _ _ => h2⟩, fun _ => ?_⟩
    rw [wp_bind]
    exact wp_mono (Pres.use telling_cleanup (hs.telling (two_le z) h2)) (fun _ _ h => ⟨h, fun _ h => absurd rfl h⟩) (fun _ _ h => h.ended)

theorem tells_rawFb (he : e ≠ 0) (h : Tells 2 n p s) (hs : Spoken z n p d) : wp env (sendRawFb d e t) (Asked' z n d e t) (fun _ => Ended) s := by
  unfold sendRawFb sendRaw
  refine tells_reply hs he (fun _ => True) ?_ fun q s h _ => tells_getRaw h
  exact wp_mono (tells_raw (two_le z) (fun s h => Pres.use telling_cleanup h) (by decide) h hs e) (fun _ _ h => ⟨h, .inr trivial⟩) (fun _ _ h => h.ended)

theorem wp_any {m : M α} : wp env m (fun _ _ => True) (fun _ _ => True) s := by unfold wp; split <;> trivial

theorem bio_kept {onFail : M Unit} {k : SendKind} {err : Int} :
    wp env (sendBioWith onFail k d err) (fun c s' => c = err ∨ s'.client.bio ≠ none) (fun _ _ => True) s := by
  have failed : ∀ (x : Int) (s2 : St), wp env (do setErrNo x; onFail; pure err : M Int) (fun c s' => c = err ∨ s'.client.bio ≠ none) (fun _ _ => True) s2 := by
    intro x s2
    rw [wp_bind]
    refine wp_mono wp_any (fun _ s2 h2 => ?_) (fun _ _ h => h)
    rw [wp_bind]
    exact wp_mono wp_any (fun _ _ h => .inl rfl) (fun _ _ h => h)
  unfold sendBioWith sysSend
  rw [wp_bind, wp_gets]
  cases hb : s.client.bio with
  | none =>
    dsimp only
    rw [wp_bind, wp_ask']
    exact failed _ _
  | some b =>
    dsimp only
    rw [wp_bind, wp_bind, wp_ask]
    generalize normSend _ _ _ = r
    rw [wp_ite]
    refine ⟨fun _ => trivial, fun _ => ?_⟩
    rw [wp_pure]
    cases r with
    | fail e =>
      dsimp only
      rw [wp_bind, wp_ask']
      exact failed _ _
    | _ => exact .inr (by dsimp only; rw [hb]; nofun)

theorem tells_tlsFb (he : e ≠ 0) (h : Tells 2 n p s) (hs : Spoken z n p d) : wp env (sendTlsFb d e t) (Asked' z n d e t) (fun _ => Ended) s := by
  unfold sendTlsFb
  refine tells_reply hs he (fun s => s.client.bio ≠ none) ?_ fun q s h hb => wp_mono (tells_getTls h true fun _ => hb) (fun _ _ h => h.2 (.inl rfl)) (fun _ _ h => h)
  exact wp_mono (wp_and (tells_bio (two_le z) (fun s h => Pres.use telling_cleanup h) (by decide) h hs e) bio_kept) (fun _ _ h => h) (fun _ _ h => h.1.ended)

theorem tells_fb (he : e ≠ 0) (h : Tells 2 n p s) (hs : Spoken z n p d) : wp env (sendFb d e t) (Asked' z n d e t) (fun _ => Ended) s := by
  unfold sendFb
  rw [wp_bind, wp_gets, wp_bind, wp_gets, wp_ite]
  exact ⟨fun _ => tells_rawFb he h hs, fun _ => tells_tlsFb he h hs⟩

theorem tells_ptrFb (he : e ≠ 0) (h : Tells 2 n p s) (hs : Spoken z n p d) : wp env (sendPtrFb d e t) (Asked' z n d e t) (fun _ => Ended) s := by
  unfold sendPtrFb
  rw [wp_bind, wp_gets, wp_ite]
  exact ⟨fun _ => tells_rawFb he h hs, fun _ => tells_fb he h hs⟩

end

/-! ### The mail -/

/-- The log records the conversation while this is done. -/
abbrev Goes (env : Env) (m : M α) : Prop := Keeps env (Telling true) (Telling true) Ended m

theorem goes_steps {m : M α} (h : Steps env (Pres (Telling true)) m) : Goes env m := .steps h (fun _ _ h => h) fun _ h => h.ended

theorem goes_log (d w : Bytes) : Goes env (addLog d w) := goes_steps (telling_addLog d w)
theorem goes_stop (e : Stop) : Goes env (M.stop e : M α) := .stop (fun _ h => h.ended) e

/-- Logged, sent, answered. -/
theorem goes_ask {d : Bytes} (hd : Ordinary d) {ask : M Int} {e t : Int} {f : Int → M α}
    (ha : ∀ s, Tells 2 0 [(b!"c", cstr d)] s → Spoken true 0 [(b!"c", cstr d)] d → wp env ask (Asked' true 0 d e t) (fun _ => Ended) s)
    {Q : St → Prop} (hf : ∀ c, Keeps env (Telling true) Q Ended (f c)) : Keeps env (Telling true) Q Ended (do addLog d; let c ← ask; f c) := by
  intro s h
  rw [wp_bind]
  refine wp_mono (tells_addLog (E := fun _ => Ended) d h.fine) (fun _ s1 h1 => ?_) (fun _ _ h => h)
  rw [wp_bind]
  exact wp_mono (ha s1 h1 ⟨fun _ => by rw [hd.1], fun _ => ⟨rfl, hd.2⟩⟩) (fun c s2 h2 => hf c s2 h2.1) (fun _ _ h => h)

theorem goes_then {d : Bytes} {e t : Int} {f : Int → M α} (he : e ≠ 0) (hd : Ordinary d) (hf : ∀ c, Goes env (f c)) :
    Goes env (do addLog d; let c ← sendPtrFb d e t; f c) := goes_ask hd (fun _ h hs => tells_ptrFb he h hs) hf

theorem goes_mailFrom (c : Int) (l : List Bytes) (hl : ∀ f ∈ l, Ordinary f) : Goes env (mailFromLoop c l) := by
  induction l generalizing c with
  | nil => exact .pure _
  | cons f l ih =>
    unfold mailFromLoop
    exact goes_then (by decide) (hl f (by simp)) fun c => .ite (.pure _) (.ite (.pure _) (ih _ fun f h => hl f (by simp [h])))

theorem goes_rcpt (c : Int) (l : List MessageAddress) : Goes env (addMailRecipients c l) := by
  induction l generalizing c with
  | nil => exact .pure _
  | cons f l ih =>
    unfold addMailRecipients
    exact goes_then (by decide) (ordinary_of (cstr_cons (x := 82) (by decide) _) (by decide)) fun c => ih _

theorem goes_elems (a : Arr α) : Goes env (arrElems a) := by
  unfold arrElems
  split
  · exact .ite (.pure _) (goes_stop _)
  · exact .ite (.pure _) (goes_stop _)

theorem goes_recipients (l : List (Arr MessageAddress)) : Goes env (recipientsLoop l) := by
  induction l with
  | nil => exact .pure _
  | cons f l ih =>
    unfold recipientsLoop
    exact .ite ih ((goes_elems _).bind fun _ => (goes_rcpt _ _).bind fun _ => .ite (.pure _) ih)

theorem goes_content (d : Bytes) (e : Int) : Goes env (sendPtr .content d e) := goes_steps (telling_content d e)

theorem goes_header (f : Bytes) (a : Arr MessageAddress) : Goes env (addressHeader f a) := by
  unfold addressHeader addMailHeader
  exact .ite ((goes_elems _).bind fun _ => Keeps.bind (Q := Telling true) ((goes_log _ _).bind fun _ => goes_content _ _) fun _ => .pure _) (.pure _)

theorem goes_headers (m : Message) : Goes env (setMailHeaders m) := by
  unfold setMailHeaders addMailHeader
  refine goes_then (by decide) (ordinary_of (cstr_cons (x := 68) (by decide) _) (by decide)) fun c => .ite (.pure _) ?_
  refine Keeps.bind (Q := Telling true) ((goes_log _ _).bind fun _ => goes_content _ _) fun _ => .ite (.pure _) ?_
  refine (goes_header _ _).bind fun _ => (goes_header _ _).bind fun _ => ?_
  refine (goes_log _ _).bind fun _ => (goes_content _ _).bind fun _ => .ite (.pure _) ?_
  exact (goes_log _ _).bind fun _ => (goes_content _ _).bind fun _ => .ite (.pure _) (.pure _)

theorem goes_pieces (l : List Bytes) : Goes env (sendPieces l) := by
  induction l with
  | nil => exact .pure _
  | cons f l ih => exact (goes_content _ _).bind fun _ => .ite (.pure _) ih

theorem goes_files (l : List Attachment) : Goes env (attachmentsLoop l) := by
  have file : ∀ a, Goes env (base64EncodedFile a) := by
    intro a
    unfold base64EncodedFile sysReadFile
    refine Keeps.bind (goes_steps (Steps.ask fun _ _ h => h.event fun _ => rfl)) fun r => ?_
    cases r <;> exact .pure _
  induction l with
  | nil => exact .pure _
  | cons a l ih => exact (file a).bind fun _ => ih.bind fun _ => .pure _

theorem goes_full (m : Message) : Goes env (fullBody m) := by
  unfold fullBody createAttachmentsText
  exact (goes_elems _).bind fun _ => .ite (Keeps.bind (Q := Telling true) ((goes_files _).bind fun _ => .pure _) fun _ => .pure _) (.pure _)

theorem goes_body (m : Message) : Goes env (setMailBody m) := by
  unfold setMailBody
  refine (goes_log _ _).bind fun _ => (goes_full m).bind fun b => Keeps.bind (Q := Telling true) ?_ fun _ => .ite (.pure _) ?_
  · unfold sendBodyText
    exact .ite (goes_pieces _) ((goes_content _ _).bind fun _ => .ite (.pure _) (.pure _))
  · refine goes_then (by decide) (ordinary_of (x := 13) (r := b!"\n.\r\n") (by decide) (by decide)) fun c => .ite (.pure _) (.gets fun _ => .ite (.pure _) ?_)
    exact (goes_steps telling_quit).bind fun _ => .ite (.pure _) (.pure _)

theorem goes_mail (m : Message) : Goes env (sendMailConnected m) := by
  unfold sendMailConnected sendMailRest setMailRecipients
  refine (goes_steps (Steps.modify fun _ h => h.client rfl rfl)).bind fun _ => Keeps.bind (Q := Telling true) ?_ fun _ => .ite (.pure _) ?_
  · exact (goes_mailFrom 0 _ (ordinary_mailFrom m.from)).bind fun _ => .ite (.pure _) (goes_recipients _)
  · exact (goes_headers m).bind fun _ => .ite (.pure _) ((goes_body m).bind fun _ => .ite (.pure _) (.gets fun _ => .ite (.pure _) ((goes_steps telling_cleanup).bind fun _ => .pure _)))

/-! ### Establishing the connection -/

/-- How a step of setting up the session ends: with a reply code it may go on. -/
def Good (c : Int) (s : St) : Prop := Telling false s ∧ (0 ≤ c → Telling true s)

theorem Telling.good {c : Int} {s : St} (h : Telling true s) : Good c s := ⟨h.weak, fun _ => h⟩

/-- A step of setting up the session. -/
abbrev Sets (env : Env) (m : M Int) : Prop := KeepsR env (Telling true) Good Ended m

theorem sets_goes {m : M Int} (h : Goes env m) : Sets env m := fun s hs => wp_mono (h s hs) (fun _ _ h => h.good) (fun _ _ h => h)

theorem sets_pure {c : Int} : Sets env (pure c) := fun _ h => h.good

/-- The first failure is the result. -/
theorem sets_bind {k : Int} (hk : 0 ≤ k) {m f : M Int} (hm : Sets env m) (hf : Sets env f) : Sets env (do let c ← m; if c ≠ k then pure c else f) := by
  intro s h
  rw [wp_bind]
  refine wp_mono (hm s h) (fun c s1 h1 => ?_) (fun _ _ h => h)
  rw [wp_ite]
  refine ⟨fun _ => h1, fun hc => hf s1 (h1.2 ?_)⟩
  rw [Decidable.of_not_not hc]
  exact hk

theorem sets_log {f : M Int} {d w : Bytes} (hf : Sets env f) : Sets env (do addLog d w; f) := by
  intro s h
  rw [wp_bind]
  exact wp_mono (goes_log d w s h) (fun _ s1 h1 => hf s1 h1) (fun _ _ h => h)

theorem tells_blocking {n : Nat} {s : St} (h : Tells 1 n [] s) : wp env setBlocking (fun _ => Tells 2 n []) (fun _ => Ended) s := by
  unfold setBlocking sysFcntlGet sysFcntlSet
  rw [wp_bind, wp_gets, wp_bind, wp_ask]
  generalize env.fcntlGet _ _ = r
  have h1 : Tells 2 n [] (St.snoc s (.fcntlGet s.client.sock r)) := by
    have e : minutes (St.snoc s (.fcntlGet s.client.sock r)).hist = { minutes s.hist with waited := 0, parts := none } := by
      show minutes (s.hist ++ [_]) = _
      rw [minutes_snoc]
      exact (h.calm (by decide)).flush
    obtain ⟨h1, h2, h3, h4, h5⟩ := h
    refine ⟨?_, ?_, ?_, ?_, ?_⟩ <;> rw [e] <;> first | assumption | exact fun _ => .inl rfl | exact fun _ => ⟨rfl, rfl⟩
  have failed : ∀ {s1 : St} (e c : Int), Tells 2 n [] s1 → wp env (do logErrno e; pure c : M Int) (fun _ => Tells 2 n []) (fun _ => Ended) s1 := by
    intro s1 e c h1
    rw [wp_bind]
    exact wp_mono (Pres.use (tells_logErrno e) h1) (fun _ _ h => h) (fun _ _ h => h.ended)
  cases r with
  | err e => exact failed e _ h1
  | ok =>
    dsimp only
    rw [wp_bind, wp_ask]
    generalize env.fcntlSet _ _ _ = r
    have h2 : Tells 2 n [] (St.snoc (St.snoc s (.fcntlGet s.client.sock .ok)) (.fcntlSet s.client.sock false r)) := h1.event fun _ => rfl
    cases r with
    | err e => exact failed e _ h2
    | ok => exact h2

theorem tells_connect (ip : Bytes) {n : Nat} {s : St} (h : Tells 1 n [] s) : wp env (connectPOSIX ip) (fun c s' => Tells 1 n [] s' ∧ (c = 0 → Tells 2 n [] s')) (fun _ => Ended) s := by
  have failed : ∀ {s1 : St} (e c : Int), c ≠ 0 → Tells 1 n [] s1 → wp env (do logErrno e; pure c : M Int) (fun c s' => Tells 1 n [] s' ∧ (c = 0 → Tells 2 n [] s')) (fun _ => Ended) s1 := by
    intro s1 e c hc h1
    rw [wp_bind]
    exact wp_mono (Pres.use (logErrno_steps e) h1) (fun _ _ h => ⟨h, fun h => absurd h hc⟩) (fun _ _ h => h.ended)
  have block : ∀ {s1 : St}, Tells 1 n [] s1 → wp env setBlocking (fun c s' => Tells 1 n [] s' ∧ (c = 0 → Tells 2 n [] s')) (fun _ => Ended) s1 := fun h1 =>
    wp_mono (tells_blocking h1) (fun _ _ h => ⟨h.down (by decide), fun _ => h⟩) (fun _ _ h => h)
  unfold connectPOSIX sysConnect sysSelect sysSockopt
  rw [wp_bind, wp_gets, wp_bind, wp_gets, wp_bind, wp_ask]
  generalize env.connect _ _ _ = r
  have h1 : Tells 1 n [] (St.snoc s (.connect s.client.sock ⟨ip, s.client.port % 65536⟩ r)) := h.event fun _ => rfl
  cases r with
  | ok => exact block h1
  | err e =>
    dsimp only
    rw [wp_ite]
    refine ⟨fun _ => ?_, fun _ => failed e _ (by decide) h1⟩
    rw [wp_ite]
    refine ⟨fun _ => h1.ended, fun _ => ?_⟩
    rw [wp_bind, wp_gets, wp_bind, wp_ask]
    generalize env.select _ _ _ = r2
    have h2 := h1.event (e := .select s.client.sock r2) fun _ => rfl
    cases r2 with
    | timeout => exact ⟨h2, fun h => absurd h (by decide)⟩
    | err e' =>
      dsimp only
      rw [wp_ite]
      exact ⟨fun _ => failed e' _ (by decide) h2, fun _ => ⟨h2, fun h => absurd h (by decide)⟩⟩
    | ready =>
      dsimp only
      rw [wp_bind, wp_ask]
      generalize env.sockopt _ _ = r3
      have h3 := h2.event (e := .sockopt s.client.sock r3) fun _ => rfl
      cases r3 with
      | err e' => exact failed e' _ (by decide) h3
      | val v =>
        dsimp only
        rw [wp_ite]
        exact ⟨fun _ => failed v _ (by decide) h3, fun _ => block h3⟩

theorem tells_initialize (s : St) (hs : (minutes s.hist).limit = s.client.timeout) : wp env initializeSession (fun c s' => Telling false s' ∧ (c = 0 → Telling true s')) (fun _ => Ended) s := by
  have bad : ∀ {c : Int} {s1 : St}, c ≠ 0 → Tells 1 0 [] s1 → Telling false s1 ∧ (c = 0 → Telling true s1) := fun hc h => ⟨h.busy (by decide), fun e => absurd e hc⟩
  unfold initializeSession initializePOSIX sysSocket
  rw [wp_bind, wp_modifyMem, wp_bind, wp_ask]
  generalize env.socket _ = r
  have h0 : ∀ v, Tells 1 0 [] { s with client := { s.client with log := some .fresh, sock := v }, mem := s.mem ++ [.freshLog], hist := s.hist ++ [.socket r] } := by
    intro v
    have e : minutes (s.hist ++ [Ev.socket r]) = { limit := (minutes s.hist).limit } := by rw [minutes_snoc]; rfl
    refine ⟨⟨.fresh, [], rfl, logOk_fresh, rfl, ?_⟩, ?_, ?_, ?_, fun h => absurd h (by decide)⟩ <;> dsimp only <;> rw [e]
    · exact List.Sublist.refl _
    · exact hs
    · exact fun _ => .inl rfl
  cases r with
  | err e =>
    dsimp only
    rw [wp_bind, wp_modify, wp_bind]
    exact wp_mono (Pres.use (logErrno_steps e) (h0 (-1))) (fun _ _ h => bad (by decide) h) (fun _ _ h => h.ended)
  | val fd =>
    dsimp only
    rw [wp_bind, wp_modify, wp_bind, wp_gets]
    dsimp only
    have h1 := h0 fd
    split
    · exact h1.ended
    · rename_i name _
      rw [wp_bind]
      refine wp_mono (Pres.use (sysResolve_steps name) h1) (fun found s2 h2 => ?_) (fun _ _ h => h.ended)
      cases found with
      | none => exact bad (by decide) h2
      | some a =>
      dsimp only
      rw [wp_ite]
      refine ⟨fun _ => h2.ended, fun _ => ?_⟩
      rw [wp_bind]
      refine wp_mono (Pres.use setNonBlocking_steps h2) (fun c s3 h3 => ?_) (fun _ _ h => h.ended)
      rw [wp_ite]
      refine ⟨fun _ => bad (by decide) h3, fun _ => ?_⟩
      rw [wp_bind, wp_gets, wp_bind]
      refine wp_mono (Pres.use (addLog_steps _ _) h3) (fun c s3 h3 => ?_) (fun _ _ h => h.ended)
      exact wp_mono (tells_connect _ h3) (fun c s4 h4 => ⟨h4.1.busy (by decide), fun hc => (h4.2 hc).telling⟩) (fun _ _ h => h)

theorem goes_lastText : Goes env lastResponseText := by
  unfold lastResponseText
  refine .gets fun r => ?_
  cases r with
  | none => exact goes_stop _
  | some _ => exact .pure _

theorem tells_ehlo (t : Int) (ht : t < 0) (f : Nat) (o : Bytes) (s : St) (h : Telling true s) :
    wp env (ehloLoop t f o) (fun r s' => Telling false s' ∧ ((∀ c, r = .inl c → 0 ≤ c) → Telling true s')) (fun _ => Ended) s := by
  induction f generalizing o s with
  | zero => exact h.ended
  | succ f ih =>
    unfold ehloLoop
    rw [wp_ite]
    refine ⟨fun _ => ⟨h.weak, fun _ => h⟩, fun _ => ?_⟩
    rw [wp_bind]
    refine wp_mono (tells_getReply h.fine) (fun c s1 h1 => ?_) (fun _ _ h => h)
    rw [wp_ite]
    refine ⟨fun _ => ⟨h1.1.busy (by decide), fun hc => absurd (hc t rfl) (by omega)⟩, fun hc => ?_⟩
    have h2 : Telling true s1 := (h1.2 hc).telling
    rw [wp_ite]
    refine ⟨fun _ => ⟨h2.weak, fun _ => h2⟩, fun _ => ?_⟩
    rw [wp_bind]
    exact wp_mono (goes_lastText s1 h2) (fun r s2 h3 => ih _ s2 h3) (fun _ _ h => h)

theorem sets_identify (e t : Int) (he : e ≠ 0) (ht : t < 0) : Sets env (identify e t) := by
  unfold identify
  intro s h
  have hd : Ordinary ehloCmd := ordinary_of (x := 101) (r := b!"hlo localhost\r\n") (by decide) (by decide)
  rw [wp_bind]
  refine wp_mono (tells_addLog (E := fun _ => Ended) ehloCmd h.fine) (fun _ s1 h1 => ?_) (fun _ _ h => h)
  rw [wp_bind]
  refine wp_mono (tells_fb (z := true) (t := t) he h1 ⟨fun _ => by rw [hd.1], fun _ => ⟨rfl, hd.2⟩⟩) (fun c s2 h2 => ?_) (fun _ _ h => h)
  rw [wp_ite]
  refine ⟨fun _ => h2.1.good, fun _ => ?_⟩
  rw [wp_bind]
  refine wp_mono (goes_lastText s2 h2.1) (fun r s3 h3 => ?_) (fun _ _ h => h)
  rw [wp_bind, wp_env, wp_bind]
  refine wp_mono (tells_ehlo t ht _ _ s3 h3) (fun r s4 h4 => ?_) (fun _ _ h => h)
  cases r with
  | inl c => exact ⟨h4.1, fun hc => h4.2 fun c' e => by cases e; exact hc⟩
  | inr x =>
    dsimp only
    unfold setAuthOptions
    rw [wp_bind, wp_modifyMem]
    exact ((h4.2 nofun).client (c := { s4.client with authOptions := extractAuthOptions (some x) }) (m := s4.mem ++ [.options (cstr x)]) rfl rfl).good

theorem sets_secureIdent : Sets env getServerSecureIdentification := by
  unfold getServerSecureIdentification
  exact sets_log (sets_identify _ _ (by decide) (by decide))

theorem sets_greeting : Sets env checkServerGreetings := fun s h =>
  wp_mono (tells_greeting h.fine) (fun _ _ h => ⟨h.1.busy (by decide), fun hc => (h.2 hc).telling⟩) (fun _ _ h => h)

theorem goes_startTls : Goes env startTLSNegotiation := by
  refine goes_steps ?_
  unfold startTLSNegotiation sysTls
  steps [telling_addLog, telling_errno, telling_cleanup, Steps.ask, Steps.modify]
  all_goals first | exact fun h => h.client rfl rfl | exact fun h => h.event fun _ => rfl | exact Telling.client ‹_› rfl rfl | exact Telling.event ‹_› fun _ => rfl

theorem goes_upgrade : Goes env upgradeToSecureConnection := by
  have := goes_ask (env := env) (d := startTlsCmd) (ordinary_of (x := 83) (r := b!"TARTTLS\r\n") (by decide) (by decide)) (e := -30) (t := -31)
    (fun _ h hs => tells_rawFb (by decide) h hs) (f := fun c => (pure c : M Int)) fun c => .pure c
  intro s h
  have := this s h
  unfold upgradeToSecureConnection
  rw [wp_bind] at this ⊢
  refine wp_mono this (fun _ s1 h1 => ?_) (fun _ _ h => h)
  rw [wp_bind] at h1
  exact wp_mono h1 (fun _ _ h => h) (fun _ _ h => h)

/-! ### The login -/

theorem sets_credential {i d : Bytes} (hi : cstr i = masked (cstr d)) (hd : cstr d ≠ b!"AUTH LOGIN\r\n") : Sets env (do addLog i; sendPtrFb d (-81) (-82)) := by
  intro s h
  rw [wp_bind]
  refine wp_mono (tells_addLog (E := fun _ => Ended) i h.fine) (fun _ s1 h1 => ?_) (fun _ _ h => h)
  exact wp_mono (tells_ptrFb (z := true) (by decide) h1 ⟨fun _ => by rw [hi], fun _ => ⟨rfl, hd⟩⟩) (fun _ _ h => h.1.good) (fun _ _ h => h)

theorem sets_login (c : Credential) : Sets env (authLoginM c) := by
  intro s h
  unfold authLoginM
  rw [wp_bind]
  refine wp_mono (tells_addLog (E := fun _ => Ended) _ h.fine) (fun _ s1 h1 => ?_) (fun _ _ h => h)
  rw [wp_bind]
  refine wp_mono (tells_ptrFb (z := false) (by decide) h1 ⟨fun _ => by decide, nofun⟩) (fun c1 s2 h2 => ?_) (fun _ _ h => h)
  rw [wp_ite]
  refine ⟨fun _ => ⟨h2.1, fun h => absurd h (by decide)⟩, fun hc => ?_⟩
  have hc : c1 = 334 := Decidable.of_not_not hc
  subst hc
  have h3 : Tells 2 2 [] s2 := h2.2 (by decide) (by decide)
  rw [wp_bind]
  refine wp_mono (tells_ptrFb (z := false) (by decide) h3 ⟨nofun, nofun⟩) (fun c1 s3 h4 => ?_) (fun _ _ h => h)
  rw [wp_ite]
  refine ⟨fun _ => ⟨h4.1, fun h => absurd h (by decide)⟩, fun hc => ?_⟩
  have hc : c1 = 334 := Decidable.of_not_not hc
  subst hc
  have h5 : Tells 2 1 [] s3 := h4.2 (by decide) (by decide)
  refine wp_mono (tells_ptrFb (z := false) (by decide) h5 ⟨nofun, nofun⟩) (fun c1 s4 h6 => ?_) (fun _ _ h => h)
  refine ⟨h6.1, fun hc => ?_⟩
  have : Tells 2 0 [] s4 := h6.2 (by omega) (by omega)
  exact this.telling

theorem sets_authenticate : Sets env authenticateIfNeeded := by
  unfold authenticateIfNeeded
  intro s h
  rw [wp_bind, wp_gets, wp_ite]
  refine ⟨fun _ => ?_, fun _ => h.good⟩
  refine sets_bind (f := pure 0) (k := 235) (by decide) (fun s h => ?_) sets_pure s h
  unfold authenticateClient
  rw [wp_bind, wp_gets]
  cases s.client.credential with
  | none => exact h.good
  | some c =>
    dsimp only
    rw [wp_bind, wp_gets]
    cases s.client.authOptions with
    | none => exact h.ended
    | some o =>
      dsimp only
      rw [wp_ite]
      refine ⟨fun _ => sets_credential (by rw [(masked_plain c).1]; decide) (masked_plain c).2 s h, fun _ => ?_⟩
      rw [wp_ite]
      refine ⟨fun _ => sets_login c s h, fun _ => ?_⟩
      rw [wp_ite]
      exact ⟨fun _ => sets_credential (by rw [(masked_xoauth2 c).1]; decide) (masked_xoauth2 c).2 s h, fun _ => h.good⟩

theorem sets_opportunistic : Sets env establishOpportunistic := by
  unfold establishOpportunistic
  intro s h
  rw [wp_bind, wp_gets]
  cases isStartTLSSupported s.client.lastResponse with
  | error u => exact h.ended
  | ok b =>
    cases b with
    | true => exact sets_log (sets_bind (by decide) (sets_goes goes_upgrade) (sets_bind (by decide) (sets_goes goes_startTls) (sets_bind (by decide) sets_secureIdent sets_authenticate))) s h
    | false =>
      have : Goes env (setKeepUsingBase true) := goes_steps (Steps.modify fun _ h => h.client rfl rfl)
      exact sets_log (sets_goes (this.bind fun _ => .pure _)) s h

theorem sets_forced : Sets env establishForced :=
  sets_bind (by decide) (sets_goes goes_startTls) (sets_bind (by decide) sets_greeting (sets_bind (by decide) sets_secureIdent sets_authenticate))

theorem sets_greeted {rest : M Int} (hr : Sets env rest) : Sets env (establishGreeted rest) :=
  sets_bind (by decide) sets_greeting (sets_bind (by decide) (sets_identify _ _ (by decide) (by decide)) hr)

theorem tells_establish (s : St) (hs : (minutes s.hist).limit = s.client.timeout) :
    wp env establish (fun c s' => Telling false s' ∧ (c = 0 → Telling true s')) (fun _ => Ended) s := by
  have good : ∀ {m : M Int}, Sets env m → ∀ s, Telling true s → wp env m (fun c s' => Telling false s' ∧ (c = 0 → Telling true s')) (fun _ => Ended) s := fun hm s h =>
    wp_mono (hm s h) (fun c _ h => ⟨h.1, fun hc => h.2 (by rw [hc]; decide)⟩) (fun _ _ h => h)
  unfold establish
  rw [wp_bind]
  refine wp_mono (tells_initialize s hs) (fun c s1 h1 => ?_) (fun _ _ h => h)
  rw [wp_ite]
  refine ⟨fun _ => h1, fun hc => ?_⟩
  have h2 := h1.2 (Decidable.of_not_not hc)
  rw [wp_bind, wp_gets]
  cases s1.client.kind with
  | smtp => exact good (sets_greeted sets_authenticate) s1 h2
  | opportunistic => exact good (sets_greeted sets_opportunistic) s1 h2
  | forced => exact good sets_forced s1 h2

/-! ### The life of a client -/

/-- If there is a log, it records the conversation; if there is none, there was none. -/
def Recorded (s : St) : Prop := (s.client.log.isSome = true → Ended s) ∧ (s.client.log = none → (minutes s.hist).said = [])

/-- What is true between the calls. -/
structure Between (s : St) : Prop where
  limit : (minutes s.hist).limit = s.client.timeout
  log : s.client.log.isSome = true → Telling false s
  noLog : s.client.log = none → (minutes s.hist).said = []
  conn : s.client.isConnected = true → Telling true s

theorem Ended.log {s : St} (h : Ended s) : s.client.log ≠ none := by
  obtain ⟨n, ⟨l, es, h, _⟩, _⟩ := h
  rw [h]
  nofun

theorem Ended.recorded {s : St} (h : Ended s) : Recorded s := ⟨fun _ => h, fun h' => absurd h' h.log⟩

theorem Telling.between {s : St} {z : Bool} (h : Telling z s) (hc : s.client.isConnected = true → Telling true s) : Between s := by
  refine ⟨?_, fun _ => h.weak, fun h' => absurd h' h.ended.log, hc⟩
  obtain ⟨n, h, _⟩ := h
  exact h.limit

theorem Between.recorded {s : St} (h : Between s) : Recorded s := ⟨fun h' => (h.log h').ended, h.noLog⟩

theorem Between.client {s : St} (h : Between s) {c : Client} {m : List SessionOp} (hl : c.log = s.client.log) (hc : c.isConnected = s.client.isConnected)
    (ht : c.timeout = s.client.timeout) : Between { s with client := c, mem := m } := by
  refine ⟨h.limit.trans ht.symm, fun h' => (h.log ?_).client hl ht, fun h' => h.noLog ?_, fun h' => (h.conn ?_).client hl ht⟩
  · rw [← hl]; exact h'
  · rw [← hl]; exact h'
  · rw [← hc]; exact h'

theorem Between.event {s : St} (h : Between s) {e : Ev} (he : Mute e) : Between (St.snoc s e) := by
  have e' : minutes (St.snoc s e).hist = { minutes s.hist with waited := 0 } := by
    show minutes (s.hist ++ [e]) = _
    rw [minutes_snoc, he]
  refine ⟨?_, fun h' => (h.log h').event he, fun h' => ?_, fun h' => (h.conn h').event he⟩
  · rw [e']; exact h.limit
  · rw [e']; exact h.noLog h'

/-- The command timeout is changed. -/
theorem Between.timeout {s : St} (h : Between s) (v : Nat) :
    Between { s with client := { s.client with timeout := v }, hist := s.hist ++ [.call (.setCommandTimeout v)] } := by
  have e : minutes (s.hist ++ [.call (.setCommandTimeout v)]) = { minutes s.hist with limit := v, waited := 0 } := by
    rw [minutes_snoc]
    rfl
  have tells : ∀ {i n}, Tells i n [] s → Tells i n [] { s with client := { s.client with timeout := v }, hist := s.hist ++ [.call (.setCommandTimeout v)] } := by
    rintro i n ⟨h1, h2, h3, h4, h5⟩
    refine ⟨?_, ?_, ?_, ?_, ?_⟩ <;> dsimp only <;> rw [e]
    · exact h1
    · exact h2
    · exact h4
    · exact fun hi => ⟨rfl, (h5 hi).2⟩
  have telling : ∀ {z}, Telling z s → Telling z { s with client := { s.client with timeout := v }, hist := s.hist ++ [.call (.setCommandTimeout v)] } := by
    rintro z ⟨n, h, hn⟩
    exact ⟨n, tells h, hn⟩
  refine ⟨?_, fun h' => telling (h.log h'), fun h' => ?_, fun h' => telling (h.conn h')⟩
  · dsimp only; rw [e]
  · dsimp only; rw [e]; exact h.noLog h'

theorem between_sendMail (m : Message) (s : St) (h : Between s) : wp env (sendMail m) (fun _ => Between) (fun _ => Recorded) s := by
  have conn : ∀ s, Telling true s → wp env (sendMailConnected m) (fun _ => Between) (fun _ => Recorded) s := fun s h =>
    wp_mono (goes_mail m s h) (fun _ _ h => h.between fun _ => h) (fun _ _ h => h.recorded)
  unfold sendMail
  rw [wp_bind, wp_gets, wp_ite]
  refine ⟨fun hc => conn s (h.conn hc), fun hc => ?_⟩
  have off : Off s := by
    unfold Off
    cases hb : s.client.isConnected
    · rfl
    · exact absurd hb hc
  rw [wp_bind]
  have hs : Steps env StaysOff establish := establish_steps
  refine wp_mono (wp_and (tells_establish s h.limit) (hs.run s)) (fun c s1 h1 => ?_) (fun _ _ h => h.1.recorded)
  obtain ⟨⟨h1, h2⟩, h3⟩ := h1
  rw [wp_ite]
  refine ⟨fun _ => h1.between fun hc => ?_, fun hc => conn s1 (h2 (Decidable.of_not_not hc))⟩
  have := h3 off
  rw [Off, hc] at this
  cases this

theorem between_call (c : Call) (s : St) (h : Between s) : wp env (doCall c) (fun _ => Between) (fun _ => Recorded) s := by
  unfold doCall
  rw [wp_bind, wp_emit]
  have he : (∀ v, c ≠ .setCommandTimeout v) → Between { s with hist := s.hist ++ [.call c] } := fun hn => h.event (e := .call c) fun t => by
    cases c with
    | setCommandTimeout v => exact absurd rfl (hn v)
    | _ => rfl
  cases c with
  | setServerName p =>
    have he := he nofun
    dsimp only
    unfold setServerName
    cases checkName p with
    | error e => cases e <;> first | exact he | exact he.recorded
    | ok name => exact he.client (c := { s.client with serverName := some name }) (m := s.mem) rfl rfl rfl
  | setServerPort v => exact (he nofun).client (c := { s.client with port := v }) (m := s.mem) rfl rfl rfl
  | setBatchMode b => exact (he nofun).client (c := { s.client with batch := b }) (m := s.mem) rfl rfl rfl
  | setCommandTimeout v => exact h.timeout v
  | setCredentials v => exact (he nofun).client (c := { s.client with credential := some v }) (m := s.mem) rfl rfl rfl
  | setKeepUsingBaseSendCommands b => exact (he nofun).client (c := { s.client with keep := b, ptrRaw := b }) (m := s.mem) rfl rfl rfl
  | setAcceptSelfSignedCert b => exact (he nofun).client (c := { s.client with acceptSelfSigned := b }) (m := s.mem) rfl rfl rfl
  | sendMail m =>
    dsimp only
    rw [wp_bind]
    exact wp_mono (between_sendMail m _ (he nofun)) (fun _ _ h => h) (fun _ _ h => h)

theorem between_calls (cs : List Call) (s : St) (h : Between s) : wp env (runCalls cs) (fun _ => Between) (fun _ => Recorded) s := by
  induction cs generalizing s with
  | nil => exact h
  | cons c cs ih =>
    unfold runCalls
    rw [wp_bind]
    refine wp_mono (between_call c s h) (fun _ s1 h1 => ?_) (fun _ _ h => h)
    rw [wp_bind]
    exact wp_mono (ih s1 h1) (fun _ _ h => h) (fun _ _ h => h)

theorem recorded_destroy (s : St) (h : Between s) : wp env destroy (fun _ => Recorded) (fun _ => Recorded) s := by
  unfold destroy
  rw [wp_bind, wp_emit]
  have h : Between { s with hist := s.hist ++ [.destroy] } := h.event (e := .destroy) fun _ => rfl
  revert h
  generalize ({ client := s.client, hist := s.hist ++ [Ev.destroy], mem := s.mem } : St) = s1
  intro h
  cases hl : s1.client.log with
  | some l => exact wp_mono (Pres.use telling_cleanup (h.log (by rw [hl]; rfl))) (fun _ _ h => h.ended.recorded) (fun _ _ h => h.ended.recorded)
  | none =>
    have hc : s1.client.isConnected = false := by
      cases hb : s1.client.isConnected
      · rfl
      · exact absurd hl (h.conn hb).ended.log
    unfold cleanup
    rw [wp_bind, wp_env]
    cases env.depth with
    | zero => exact h.recorded
    | succ n =>
      unfold cleanupN
      rw [wp_bind, wp_gets, wp_bind, wp_gets, hc, Bool.and_false]
      unfold wp
      rw [if_neg (by decide), closeSession_run]
      refine ⟨fun h' => ?_, fun _ => ?_⟩
      · rw [show (closedClient s1.client).log = none from (closedClient_log _).trans hl] at h'
        cases h'
      · show (minutes (s1.hist ++ closingEvs s1.client)).said = []
        rcases minutes_mute (h := s1.hist) (closing_mute s1.client) with e | e <;> rw [e] <;> exact h.noLog hl

theorem between_new {kind : Kind} {p : Option Bytes} {port : Nat} {c : Client} (h : Client.new kind p port = .ok c) :
    Between { client := c, hist := [] } := by
  unfold Client.new at h
  split at h
  · cases h
  · cases h
    exact ⟨rfl, nofun, fun _ => rfl, nofun⟩

theorem recorded_runCalls (cs : List Call) (s : St) (h : Between s) : Recorded (runCalls cs env s).2 :=
  state_of (wp_mono (between_calls cs s h) (fun _ _ h => h.recorded) (fun _ _ h => h))

theorem recorded_life (cs : List Call) (s : St) (h : Between s) : Recorded (life cs env s).2 := by
  refine state_of ?_
  unfold life
  rw [wp_bind]
  refine wp_mono (between_calls cs s h) (fun _ s1 h1 => ?_) (fun _ _ h => h)
  rw [wp_bind]
  exact wp_mono (recorded_destroy s1 h1) (fun _ _ h => h) (fun _ _ h => h)

theorem Recorded.records {s : St} (h : Recorded s) : match s.client.log with
    | some l => Records l.content s.hist
    | none => (minutes s.hist).said = [] := by
  cases hl : s.client.log with
  | none => exact h.2 hl
  | some l =>
    obtain ⟨n, ⟨l', es, h1, _, h3, h4⟩, _⟩ := h.1 (by rw [hl]; rfl)
    rw [hl] at h1
    cases h1
    exact ⟨es, h3, by rw [List.append_nil] at h4; exact h4⟩

end Verif.Proofs.Minutes
