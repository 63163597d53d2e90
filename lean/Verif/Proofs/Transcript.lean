import Verif.Proofs.Calls
import Verif.Proofs.Off
import Verif.Proofs.Log
import Verif.Proofs.Close
import Verif.Proofs.Blind
import Verif.Spec.Transcript
/-!
# The log shows the commands
-/
namespace Verif.Proofs
open Verif Verif.Model Verif.Spec

variable {α : Type} {env : Env}

/-- The log shows the commands since the last socket and after them `p`; `n` commands are to be kept secret. -/
structure Tells (n : Nat) (p : List Bytes) (s : St) : Prop where
  out : ∃ l es, s.client.log = some l ∧ LogOk l ∧ l.content = logText es ∧ ((transcript s.hist).2 ++ p).Sublist (clientSays es)
  secret : (transcript s.hist).1 = n

theorem transcript_snoc (h : Hist) (e : Ev) : transcript (h ++ [e]) = transcriptStep (transcript h) e := by
  unfold transcript
  rw [List.foldl_append]
  rfl

theorem transcript_append {h evs : Hist} (he : ∀ e ∈ evs, ∀ t, transcriptStep t e = t) : transcript (h ++ evs) = transcript h := by
  unfold transcript
  rw [List.foldl_append]
  generalize h.foldl transcriptStep (0, []) = t
  induction evs generalizing t with
  | nil => rfl
  | cons e evs ih =>
    rw [List.foldl_cons, he e (by simp)]
    exact ih (fun e h => he e (by simp [h])) t

section
variable {n : Nat} {p : List Bytes} {s : St}

theorem Tells.client (h : Tells n p s) {c : Client} {m : List SessionOp} (hl : c.log = s.client.log) : Tells n p { s with client := c, mem := m } :=
  ⟨by obtain ⟨l, es, h1, h2⟩ := h.out; exact ⟨l, es, hl.trans h1, h2⟩, h.secret⟩

theorem Tells.event (h : Tells n p s) {e : Ev} (he : ∀ t, transcriptStep t e = t) : Tells n p (St.snoc s e) := by
  have : transcript (St.snoc s e).hist = transcript s.hist := by
    show transcript (s.hist ++ [e]) = _
    rw [transcript_snoc, he]
  exact ⟨by rw [this]; exact h.out, by rw [this]; exact h.secret⟩

theorem Tells.drop (h : Tells n p s) : Tells n [] s := by
  obtain ⟨⟨l, es, h1, h2, h3, h4⟩, h5⟩ := h
  exact ⟨⟨l, es, h1, h2, h3, by rw [List.append_nil]; exact (List.sublist_append_left _ _).trans h4⟩, h5⟩

theorem logText_append (es fs : List (Bytes × Bytes)) : logText (es ++ fs) = logText es ++ logText fs := by simp [logText]

theorem clientSays_append (es fs : List (Bytes × Bytes)) : clientSays (es ++ fs) = clientSays es ++ clientSays fs := by simp [clientSays]

theorem logItem_entry (i w : Bytes) : b!"\n" ++ w ++ b!": " ++ logItem i w = logText [(w, cstr i)] := by
  simp only [logText, logItem, logEntry, List.map_cons, List.map_nil, List.flatten_cons, List.flatten_nil, List.append_nil]
  split
  · rw [escapeCRLF_eq]
  · rfl

theorem log_entry {l l' : Log} {i w : Bytes} (ho : LogOk l) (h : l.add i w = .ok l') : LogOk l' ∧ l'.content = l.content ++ logText [(w, cstr i)] := by
  obtain ⟨l1, e1, h1, h2, _⟩ := log_add_ok ho i w
  rw [h] at e1
  cases e1
  exact ⟨h1, by rw [h2, ← logItem_entry]; simp only [List.append_assoc]⟩

instance tells_filing : Filing (Pres (Tells n p)) where
  refl := fun _ h => h
  trans := fun h h' x => h' (h x)
  log := by
    rintro s l i w l' hl ha ⟨⟨l0, es, h1, h2, h3, h4⟩, h5⟩
    rw [hl] at h1
    cases h1
    obtain ⟨ho, hc⟩ := log_entry h2 ha
    refine ⟨⟨l', es ++ [(w, cstr i)], rfl, ho, ?_, ?_⟩, h5⟩
    · rw [hc, h3, logText_append]
    · rw [clientSays_append]
      exact h4.trans (List.sublist_append_left _ _)
  errno := fun _ _ h => h.client rfl
  resp := fun _ _ h => h.client rfl
  auth := fun _ _ h => h.client rfl
  fcntlGet := fun _ _ _ h => h.event fun _ => rfl
  fcntlSet := fun _ _ _ _ h => h.event fun _ => rfl
  select := fun _ _ _ h => h.event fun _ => rfl
  sockopt := fun _ _ _ h => h.event fun _ => rfl
  resolve := fun _ _ _ h => h.event fun _ => rfl
  connect := fun _ _ _ _ h => h.event fun _ => rfl
  readFile := fun _ _ _ h => h.event fun _ => rfl

instance tells_reading : Reading (Pres (Tells n p)) where
  sleep := fun _ h => h.event fun _ => rfl
  recv := fun _ _ _ h => h.event fun _ => rfl

/-- What the client is about to say is put into the log. -/
theorem tells_addLog (d : Bytes) (h : Tells n [] s) : wp env (addLog d) (fun _ => Tells n [cstr d]) (fun _ => Tells n []) s := by
  obtain ⟨⟨l, es, h1, h2, h3, h4⟩, h5⟩ := h
  unfold addLog
  rw [wp_bind, wp_gets, h1]
  cases ha : l.add d b!"c" with
  | error u => simp only [ha]; exact ⟨⟨l, es, h1, h2, h3, h4⟩, h5⟩
  | ok l' =>
    simp only [ha]
    rw [wp_modifyMem]
    obtain ⟨ho, hc⟩ := log_entry h2 ha
    refine ⟨⟨l', es ++ [(b!"c", cstr d)], rfl, ho, ?_, ?_⟩, h5⟩
    · rw [hc, h3, logText_append]
    · rw [clientSays_append]
      rw [List.append_nil] at h4
      exact h4.append (List.Sublist.refl _)

/-- The number of secrets after a command. -/
def nextSecret (d : Bytes) : Nat → Nat
  | 0 => if d = b!"AUTH LOGIN\r\n" then 2 else 0
  | n + 1 => n

/-- A command is sent, after it was logged or when it is secret. -/
theorem Tells.say (h : Tells n p s) {k : SendKind} {c : Chan} {d : Bytes} {r : SendRes} (hk : k ≠ .content) (hp : n = 0 → p = [masked d]) :
    Tells (nextSecret d n) [] (St.snoc s (.send k c d r)) := by
  obtain ⟨⟨l, es, h1, h2, h3, h4⟩, h5⟩ := h
  have e : transcript (St.snoc s (.send k c d r)).hist = showCommand d (transcript s.hist) := by
    show transcript (s.hist ++ [_]) = _
    rw [transcript_snoc]
    cases k <;> first | rfl | exact absurd rfl hk
  have e2 : transcript s.hist = (n, (transcript s.hist).2) := by rw [← h5]
  rw [e2] at e
  generalize (transcript s.hist).2 = t at e h4
  cases n with
  | zero =>
    rw [hp rfl] at h4
    refine ⟨⟨l, es, h1, h2, h3, ?_⟩, ?_⟩
    · rw [e]; simpa [showCommand] using h4
    · rw [e]; rfl
  | succ n =>
    refine ⟨⟨l, es, h1, h2, h3, ?_⟩, ?_⟩
    · rw [e, List.append_nil]; exact (List.sublist_append_left _ _).trans h4
    · rw [e]; rfl

end

/-- The log shows all commands; `z` says that nothing is to be kept secret now. -/
def Telling (z : Bool) (s : St) : Prop := ∃ n, Tells n [] s ∧ (z = true → n = 0)

theorem Telling.fine {s : St} (h : Telling true s) : Tells 0 [] s := by
  obtain ⟨n, h, hn⟩ := h
  exact hn rfl ▸ h

theorem Tells.telling {s : St} {p : List Bytes} {z : Bool} (h : Tells 0 p s) : Telling z s := ⟨0, h.drop, fun _ => rfl⟩

theorem Telling.weak {s : St} {z : Bool} (h : Telling z s) : Telling false s := by
  obtain ⟨n, h, _⟩ := h
  exact ⟨n, h, nofun⟩

theorem Telling.client {s : St} {z : Bool} (h : Telling z s) {c : Client} {m : List SessionOp} (hl : c.log = s.client.log) :
    Telling z { s with client := c, mem := m } := by
  obtain ⟨n, h, hn⟩ := h
  exact ⟨n, h.client hl, hn⟩

theorem Telling.event {s : St} {z : Bool} (h : Telling z s) {e : Ev} (he : ∀ t, transcriptStep t e = t) : Telling z (St.snoc s e) := by
  obtain ⟨n, h, hn⟩ := h
  exact ⟨n, h.event he, hn⟩

instance telling_filing {z : Bool} : Filing (Pres (Telling z)) where
  refl := fun _ h => h
  trans := fun h h' x => h' (h x)
  log := fun s l i w l' hl ha ⟨n, h, hn⟩ => ⟨n, tells_filing.log s l i w l' hl ha h, hn⟩
  errno := fun _ _ h => h.client rfl
  resp := fun _ _ h => h.client rfl
  auth := fun _ _ h => h.client rfl
  fcntlGet := fun _ _ _ h => h.event fun _ => rfl
  fcntlSet := fun _ _ _ _ h => h.event fun _ => rfl
  select := fun _ _ _ h => h.event fun _ => rfl
  sockopt := fun _ _ _ h => h.event fun _ => rfl
  resolve := fun _ _ _ h => h.event fun _ => rfl
  connect := fun _ _ _ _ h => h.event fun _ => rfl
  readFile := fun _ _ _ h => h.event fun _ => rfl

instance telling_reading {z : Bool} : Reading (Pres (Telling z)) where
  sleep := fun _ h => h.event fun _ => rfl
  recv := fun _ _ _ h => h.event fun _ => rfl

/-- The command was logged, or is secret; and when nothing is secret it is not the beginning of a login. -/
structure Spoken (z : Bool) (n : Nat) (p : List Bytes) (d : Bytes) : Prop where
  logged : n = 0 → p = [masked (cstr d)]
  plain : z = true → n = 0 ∧ cstr d ≠ b!"AUTH LOGIN\r\n"

theorem Spoken.next {z : Bool} {n : Nat} {p : List Bytes} {d : Bytes} (h : Spoken z n p d) (hz : z = true) : nextSecret (cstr d) n = 0 := by
  obtain ⟨h1, h2⟩ := h.plain hz
  subst h1
  simp [nextSecret, h2]

theorem Spoken.telling {z : Bool} {n : Nat} {p : List Bytes} {d : Bytes} {s : St} (h : Spoken z n p d) (ht : Tells (nextSecret (cstr d) n) [] s) : Telling z s :=
  ⟨_, ht, fun hz => h.next hz⟩

/-- How sending a command ends. -/
def Says' (z : Bool) (n : Nat) (d : Bytes) (err : Int) (c : Int) (s : St) : Prop :=
  (c = err ∧ Telling z s) ∨ (c = 0 ∧ Tells (nextSecret (cstr d) n) [] s)

section
variable {z : Bool} {n : Nat} {p : List Bytes} {d : Bytes} {s : St} {onFail : M Unit} {k : SendKind}

theorem tells_raw (hf : ∀ s, Telling z s → wp env onFail (fun _ => Telling z) (fun _ => Telling z) s) (hk : k ≠ .content) (h : Tells n p s) (hs : Spoken z n p d) (err : Int) :
    wp env (sendRawWith onFail k d err) (Says' z n d err) (fun _ => Telling z) s := by
  unfold sendRawWith sysSend
  rw [wp_bind, wp_gets, wp_bind, wp_bind, wp_ask]
  generalize normSend _ _ _ = r
  have hs1 := h.say (c := .raw s.client.sock) (r := r) hk hs.logged
  rw [wp_ite]
  refine ⟨fun _ => hs.telling hs1, fun _ => ?_⟩
  rw [wp_pure]
  cases r with
  | fail e =>
    dsimp only
    rw [wp_bind]
    refine wp_mono (Pres.use (setErrNo_steps e) (hs.telling hs1)) (fun _ s2 h2 => ?_) (fun _ _ h => h)
    rw [wp_bind]
    exact wp_mono (hf s2 h2) (fun _ _ h => .inl ⟨rfl, h⟩) (fun _ _ h => h)
  | sent m => exact .inr ⟨rfl, hs1⟩
  | never => exact .inr ⟨rfl, hs1⟩

theorem tells_bio (hf : ∀ s, Telling z s → wp env onFail (fun _ => Telling z) (fun _ => Telling z) s) (hk : k ≠ .content) (h : Tells n p s) (hs : Spoken z n p d) (err : Int) :
    wp env (sendBioWith onFail k d err) (Says' z n d err) (fun _ => Telling z) s := by
  have failed : ∀ (x : Int) (s2 : St), Telling z s2 → wp env (do setErrNo x; onFail; pure err : M Int) (Says' z n d err) (fun _ => Telling z) s2 := by
    intro x s2 h2
    rw [wp_bind]
    refine wp_mono (Pres.use (setErrNo_steps x) h2) (fun _ s2 h2 => ?_) (fun _ _ h => h)
    rw [wp_bind]
    exact wp_mono (hf s2 h2) (fun _ _ h => .inl ⟨rfl, h⟩) (fun _ _ h => h)
  unfold sendBioWith sysSend
  rw [wp_bind, wp_gets]
  cases s.client.bio with
  | none =>
    dsimp only
    rw [wp_bind, wp_ask']
    exact failed _ _ ⟨n, h.drop, fun hz => (hs.plain hz).1⟩
  | some b =>
    dsimp only
    rw [wp_bind, wp_bind, wp_ask]
    generalize normSend _ _ _ = r
    have hs1 := h.say (c := .tls b.id b.fd) (r := r) hk hs.logged
    rw [wp_ite]
    refine ⟨fun _ => hs.telling hs1, fun _ => ?_⟩
    rw [wp_pure]
    cases r with
    | fail e =>
      dsimp only
      rw [wp_bind, wp_ask']
      exact failed _ _ (hs.telling hs1)
    | sent m => exact .inr ⟨rfl, hs1⟩
    | never => exact .inr ⟨rfl, hs1⟩

theorem tells_ptr (hf : ∀ s, Telling z s → wp env onFail (fun _ => Telling z) (fun _ => Telling z) s) (hk : k ≠ .content) (h : Tells n p s) (hs : Spoken z n p d) (err : Int) :
    wp env (sendPtrWith onFail k d err) (Says' z n d err) (fun _ => Telling z) s := by
  unfold sendPtrWith
  rw [wp_bind, wp_gets, wp_bind, wp_gets, wp_ite]
  exact ⟨fun _ => tells_raw hf hk h hs err, fun _ => tells_bio hf hk h hs err⟩

end

theorem closing_neutral (c : Client) : ∀ e ∈ closingEvs c, ∀ t, transcriptStep t e = t := by
  intro e he t
  unfold closingEvs at he
  rcases List.mem_append.mp he with he | he
  · split at he
    · simp at he
    · split at he <;> simp at he
      subst he; rfl
  · split at he <;> simp at he
    subst he; rfl

theorem closedClient_log (c : Client) : (closedClient c).log = c.log := by unfold closedClient; split <;> rfl

theorem telling_close {z : Bool} (s : St) (h : Telling z s) : wp env closeSession (fun _ => Telling z) (fun _ => Telling z) s := by
  obtain ⟨n, h, hn⟩ := h
  unfold wp
  rw [closeSession_run]
  refine ⟨n, ⟨?_, ?_⟩, hn⟩
  · obtain ⟨l, es, h1, h2⟩ := h.out
    dsimp only
    rw [transcript_append (closing_neutral _)]
    exact ⟨l, es, (closedClient_log _).trans h1, h2⟩
  · dsimp only
    rw [transcript_append (closing_neutral _)]
    exact h.secret

theorem telling_quitWith {z : Bool} {onFail : M Unit} (hf : ∀ s, Telling z s → wp env onFail (fun _ => Telling z) (fun _ => Telling z) s) (s : St) (h : Telling z s) :
    wp env (sendQuitWith onFail) (fun _ => Telling z) (fun _ => Telling z) s := by
  obtain ⟨n, h, hn⟩ := h
  unfold sendQuitWith
  rw [wp_bind]
  refine wp_mono (tells_addLog quitCmd h) (fun _ s1 h1 => ?_) (fun _ s1 h => ⟨n, h, hn⟩)
  have hs : Spoken z n [cstr quitCmd] quitCmd := ⟨fun _ => by decide, fun hz => ⟨hn hz, by decide⟩⟩
  refine wp_mono (tells_ptr hf (by decide) h1 hs (-99)) (fun _ s2 h2 => ?_) (fun _ _ h => h)
  rcases h2 with h2 | h2
  · exact h2.2
  · exact hs.telling h2.2

theorem telling_cleanupN {z : Bool} (n : Nat) (s : St) (h : Telling z s) : wp env (cleanupN n) (fun _ => Telling z) (fun _ => Telling z) s := by
  induction n generalizing s with
  | zero => exact h
  | succ n ih =>
    unfold cleanupN
    rw [wp_bind, wp_gets, wp_bind, wp_gets, wp_ite]
    refine ⟨fun _ => ?_, fun _ => telling_close s h⟩
    rw [wp_bind]
    exact wp_mono (telling_quitWith ih s h) (fun _ s1 h1 => telling_close s1 h1) (fun _ _ h => h)

theorem telling_cleanup {z : Bool} : Steps env (Pres (Telling z)) cleanup := by
  constructor
  intro s
  unfold cleanup
  rw [wp_bind, wp_env]
  by_cases h : Telling z s
  · exact wp_mono (telling_cleanupN _ s h) (fun _ _ h _ => h) (fun _ _ h _ => h)
  · unfold wp
    split <;> exact fun h' => absurd h' h

theorem telling_quit : Steps env (Pres (Telling z)) sendQuit := by
  constructor
  intro s
  by_cases h : Telling z s
  · exact wp_mono (telling_quitWith (fun s h => Pres.use telling_cleanup h) s h) (fun _ _ h _ => h) (fun _ _ h _ => h)
  · unfold wp
    split <;> exact fun h' => absurd h' h

/-- Content is not part of the transcript. -/
theorem telling_content {z : Bool} (d : Bytes) (e : Int) : Steps env (Pres (Telling z)) (sendPtr .content d e) := by
  unfold sendPtr sendPtrWith sendRawWith sendBioWith sysSend
  steps [telling_cleanup, setErrNo_steps, Steps.ask]
  all_goals exact Telling.event ‹_› fun _ => rfl

/-! ### A command and its reply -/

section
variable {z : Bool} {n : Nat} {p : List Bytes} {d : Bytes} {s : St} {e t : Int}

/-- How a command with its reply ends. -/
def Asked' (z : Bool) (n : Nat) (d : Bytes) (e t c : Int) (s : St) : Prop :=
  Telling z s ∧ (c ≠ e → c ≠ t → Tells (nextSecret (cstr d) n) [] s)

theorem tells_reply (hs : Spoken z n p d) {send reply : M Int} (he : e ≠ 0) (h : wp env send (Says' z n d e) (fun _ => Telling z) s)
    (hr : ∀ q, Steps env (Pres (Tells q [])) reply) :
    wp env (do if (← send) ≠ 0 then pure e else do
            let code ← reply
            if code ≠ -1 then pure code else do cleanup; pure t) (Asked' z n d e t) (fun _ => Telling z) s := by
  rw [wp_bind]
  refine wp_mono h (fun c s1 h1 => ?_) (fun _ _ h => h)
  rw [wp_ite]
  rcases h1 with ⟨rfl, h1⟩ | ⟨rfl, h1⟩
  · exact ⟨fun _ => ⟨h1, fun h => absurd rfl h⟩, fun h => absurd he h⟩
  · refine ⟨fun h => absurd rfl h, fun _ => ?_⟩
    rw [wp_bind]
    refine wp_mono (Pres.use (hr _) h1) (fun code s2 h2 => ?_) (fun _ _ h => hs.telling h)
    rw [wp_ite]
    refine ⟨fun _ => ⟨hs.telling h2, fun _ _ => h2⟩, fun _ => ?_⟩
    rw [wp_bind]
    exact wp_mono (Pres.use telling_cleanup (hs.telling h2)) (fun _ _ h => ⟨h, fun _ h => absurd rfl h⟩) (fun _ _ h => h)

theorem tells_rawFb (he : e ≠ 0) (h : Tells n p s) (hs : Spoken z n p d) : wp env (sendRawFb d e t) (Asked' z n d e t) (fun _ => Telling z) s := by
  unfold sendRawFb sendRaw
  exact tells_reply hs he (tells_raw (fun s h => Pres.use telling_cleanup h) (by decide) h hs e) fun q => getRawReply_steps

theorem tells_tlsFb (he : e ≠ 0) (h : Tells n p s) (hs : Spoken z n p d) : wp env (sendTlsFb d e t) (Asked' z n d e t) (fun _ => Telling z) s := by
  unfold sendTlsFb
  exact tells_reply hs he (tells_bio (fun s h => Pres.use telling_cleanup h) (by decide) h hs e) fun q => getTlsReply_steps

theorem tells_fb (he : e ≠ 0) (h : Tells n p s) (hs : Spoken z n p d) : wp env (sendFb d e t) (Asked' z n d e t) (fun _ => Telling z) s := by
  unfold sendFb
  rw [wp_bind, wp_gets, wp_bind, wp_gets, wp_ite]
  exact ⟨fun _ => tells_rawFb he h hs, fun _ => tells_tlsFb he h hs⟩

theorem tells_ptrFb (he : e ≠ 0) (h : Tells n p s) (hs : Spoken z n p d) : wp env (sendPtrFb d e t) (Asked' z n d e t) (fun _ => Telling z) s := by
  unfold sendPtrFb
  rw [wp_bind, wp_gets, wp_ite]
  exact ⟨fun _ => tells_rawFb he h hs, fun _ => tells_fb he h hs⟩

end

/-- A command that is shown as it is. -/
def Ordinary (d : Bytes) : Prop := masked (cstr d) = cstr d ∧ cstr d ≠ b!"AUTH LOGIN\r\n"

theorem ordinary_of {d : Bytes} {x : UInt8} {r : Bytes} (h : cstr d = x :: r) (hx : x ≠ 65) : Ordinary d := by
  unfold Ordinary masked
  rw [h]
  refine ⟨?_, by simp [hx]⟩
  simp [List.isPrefixOf, Ne.symm hx, hx]

/-- Logged, sent, answered. -/
theorem tells_ordinary {d : Bytes} (hd : Ordinary d) {ask : M Int}
    (ha : ∀ s, Tells 0 [cstr d] s → Spoken true 0 [cstr d] d → wp env ask (fun _ => Telling true) (fun _ => Telling true) s) :
    Steps env (Pres (Telling true)) (do addLog d; ask) := by
  constructor
  intro s
  by_cases h : Telling true s
  · rw [wp_bind]
    refine wp_mono (tells_addLog d h.fine) (fun _ s1 h1 => ?_) (fun _ _ h _ => h.telling)
    refine wp_mono (ha s1 h1 ⟨fun _ => by rw [hd.1], fun _ => ⟨rfl, hd.2⟩⟩) (fun _ _ h _ => h) (fun _ _ h _ => h)
  · unfold wp
    split <;> exact fun h' => absurd h' h

theorem Steps.assoc {R : St → St → Prop} {β γ : Type} {m : M α} {f : α → M β} {g : β → M γ} (h : Steps env R ((m >>= f) >>= g)) :
    Steps env R (m >>= fun a => f a >>= g) := by
  constructor
  intro s
  have := h.run s
  rw [wp_bind, wp_bind] at this
  rw [wp_bind]
  exact wp_mono this (fun a s1 h1 => by rw [wp_bind]; exact h1) (fun _ _ h => h)

/-- The same with what is done afterwards. -/
theorem tells_then {d : Bytes} (hd : Ordinary d) {ask : M Int} {e t : Int} {f : Int → M α}
    (ha : ∀ s, Tells 0 [cstr d] s → Spoken true 0 [cstr d] d → wp env ask (Asked' true 0 d e t) (fun _ => Telling true) s)
    (hf : ∀ c, Steps env (Pres (Telling true)) (f c)) : Steps env (Pres (Telling true)) (do addLog d; let c ← ask; f c) :=
  Steps.assoc (.bind (tells_ordinary hd fun s h hs => wp_mono (ha s h hs) (fun _ _ h => h.1) (fun _ _ h => h)) hf)

theorem telling_askThen {d : Bytes} {e t : Int} {f : Int → M α} (he : e ≠ 0) (hd : Ordinary d) (hf : ∀ c, Steps env (Pres (Telling true)) (f c)) :
    Steps env (Pres (Telling true)) (do addLog d; let c ← sendPtrFb d e t; f c) :=
  tells_then hd (fun _ h hs => tells_ptrFb he h hs) hf

/-! ### The mail -/

theorem cstr_cons {x : UInt8} (hx : x ≠ 0) (r : Bytes) : cstr (x :: r) = x :: cstr r := by simp [cstr, hx]

theorem telling_mailFrom (c : Int) (l : List Bytes) (hl : ∀ f ∈ l, Ordinary f) : Steps env (Pres (Telling true)) (mailFromLoop c l) := by
  induction l generalizing c with
  | nil => unfold mailFromLoop; steps []
  | cons f l ih =>
    unfold mailFromLoop
    refine telling_askThen (by decide) (hl f (by simp)) fun c => ?_
    have ih := ih (hl := fun f h => hl f (by simp [h]))
    steps [ih]

theorem ordinary_mailFrom (a : MessageAddress) : ∀ f ∈ mailFormats a, Ordinary f := by
  intro f hf
  unfold mailFormats at hf
  simp only [List.mem_cons, List.not_mem_nil, or_false] at hf
  rcases hf with rfl | rfl | rfl <;> exact ordinary_of (cstr_cons (x := 77) (by decide) _) (by decide)

theorem telling_rcpt (c : Int) (l : List MessageAddress) : Steps env (Pres (Telling true)) (addMailRecipients c l) := by
  induction l generalizing c with
  | nil => unfold addMailRecipients; steps []
  | cons f l ih =>
    unfold addMailRecipients
    refine telling_askThen (by decide) (ordinary_of (cstr_cons (x := 82) (by decide) _) (by decide)) fun c => ?_
    steps [ih]

theorem telling_recipients (l : List (Arr MessageAddress)) : Steps env (Pres (Telling true)) (recipientsLoop l) := by
  induction l with
  | nil => unfold recipientsLoop; steps []
  | cons f l ih => unfold recipientsLoop; steps [telling_rcpt, arrElems_steps, ih]

theorem telling_headers (m : Message) : Steps env (Pres (Telling true)) (setMailHeaders m) := by
  unfold setMailHeaders
  refine telling_askThen (by decide) (ordinary_of (cstr_cons (x := 68) (by decide) _) (by decide)) fun c => ?_
  unfold addressHeader addMailHeader
  steps [addLog_steps, telling_content, arrElems_steps]

theorem telling_pieces (l : List Bytes) : Steps env (Pres (Telling true)) (sendPieces l) := by
  induction l with
  | nil => unfold sendPieces; steps []
  | cons f l ih => unfold sendPieces; steps [telling_content, ih]

theorem telling_body (m : Message) : Steps env (Pres (Telling true)) (setMailBody m) := by
  unfold setMailBody sendBodyText
  have : ∀ (f : Int → M Int), (∀ c, Steps env (Pres (Telling true)) (f c)) →
      Steps env (Pres (Telling true)) (do addLog endOfData; let c ← sendPtrFb endOfData (-97) (-98); f c) := fun f hf =>
    telling_askThen (by decide) (ordinary_of (x := 13) (r := b!"\n.\r\n") (by decide) (by decide)) hf
  steps [this, addLog_steps, telling_content, telling_pieces, fullBody_steps, telling_quit]

theorem telling_mail (m : Message) : Steps env (Pres (Telling true)) (sendMailConnected m) := by
  unfold sendMailConnected sendMailRest setMailRecipients
  have := telling_mailFrom (env := env) 0 _ (ordinary_mailFrom m.from)
  steps [this, telling_recipients, telling_headers, telling_body, telling_cleanup, Steps.modify]
  exact Telling.client ‹_› rfl

/-! ### Establishing the connection -/

theorem telling_identify (e t : Int) (he : e ≠ 0) : Steps env (Pres (Telling true)) (identify e t) := by
  unfold identify
  refine tells_then (ordinary_of (x := 101) (r := b!"hlo localhost\r\n") (by decide) (by decide)) (fun _ h hs => tells_fb (t := t) he h hs) fun c => ?_
  steps [lastResponseText_steps, ehloLoop_steps, setAuthOptions_steps]

theorem telling_startTls : Steps env (Pres (Telling true)) startTLSNegotiation := by
  unfold startTLSNegotiation sysTls
  steps [addLog_steps, setErrNo_steps, telling_cleanup, Steps.ask, Steps.modify]
  all_goals first | exact fun h => h.client rfl | exact fun h => h.event fun _ => rfl | exact Telling.client ‹_› rfl | exact Telling.event ‹_› fun _ => rfl

theorem telling_upgrade : Steps env (Pres (Telling true)) upgradeToSecureConnection := by
  unfold upgradeToSecureConnection
  exact tells_ordinary (ordinary_of (x := 83) (r := b!"TARTTLS\r\n") (by decide) (by decide)) fun _ h hs =>
    wp_mono (tells_rawFb (by decide) h hs) (fun _ _ h => h.1) (fun _ _ h => h)

theorem telling_initialize (s : St) : wp env initializeSession (fun _ => Telling true) (fun _ => Telling true) s := by
  unfold initializeSession initializePOSIX sysSocket
  rw [wp_bind, wp_modifyMem, wp_bind, wp_ask]
  generalize env.socket _ = r
  have h0 : Telling true { s with client := { s.client with log := some .fresh }, mem := s.mem ++ [.freshLog], hist := s.hist ++ [.socket r] } := by
    have e : transcript (s.hist ++ [Ev.socket r]) = (0, []) := by rw [transcript_snoc]; rfl
    exact ⟨0, ⟨⟨.fresh, [], rfl, logOk_fresh, rfl, by rw [e]; exact List.Sublist.refl _⟩, by rw [e]⟩, fun _ => rfl⟩
  have hs : Steps env (Pres (Telling true)) (match r with
      | .err e => do
        M.modify ({ · with sock := -1 })
        logErrno e
        pure (-1)
      | .val fd => do
        M.modify ({ · with sock := (fd : Int) })
        match ← M.gets (·.serverName) with
        | none => M.stop (.ub .nullDeref)
        | some name =>
          match ← sysResolve name with
          | none => pure (-6)
          | some a =>
            if 4 < a.length then M.stop (.ub .outOfBounds)
            else do
              if (← setNonBlocking) ≠ 0 then pure 1
              else do
                addLog (b!"Trying to connect to " ++ name ++ b!" on port " ++ natDec (← M.gets (·.port)))
                connectPOSIX (sinAddr a)) := by
    steps [Steps.modify, logErrno_steps, sysResolve_steps, setNonBlocking_steps, addLog_steps, connectPOSIX_steps]
    all_goals exact Telling.client ‹_› rfl
  exact Pres.use hs h0

/-- How a login ends. -/
def LoggedIn (c : Int) (s : St) : Prop := Telling false s ∧ (c = 0 → Telling true s)

theorem cstr_pre {a : Bytes} (h : (0 : UInt8) ∉ a) (b : Bytes) : cstr (a ++ b) = a ++ cstr b := by
  induction a with
  | nil => rfl
  | cons x a ih =>
    simp only [List.mem_cons, not_or] at h
    rw [List.cons_append, cstr_cons (Ne.symm h.1), ih h.2]; rfl

theorem tells_credential {i d : Bytes} (hi : cstr i = masked (cstr d)) (hd : cstr d ≠ b!"AUTH LOGIN\r\n") (s : St) (h : Telling true s) :
    wp env (do addLog i; sendPtrFb d (-81) (-82)) (fun _ => Telling true) (fun _ => Telling true) s := by
  rw [wp_bind]
  refine wp_mono (tells_addLog i h.fine) (fun _ s1 h1 => ?_) (fun _ _ h => h.telling)
  exact wp_mono (tells_ptrFb (z := true) (by decide) h1 ⟨fun _ => by rw [hi], fun _ => ⟨rfl, hd⟩⟩) (fun _ _ h => h.1) (fun _ _ h => h)

theorem masked_plain (c : Credential) : masked (cstr (authPlain c)) = b!"AUTH PLAIN ***************\r\n" ∧ cstr (authPlain c) ≠ b!"AUTH LOGIN\r\n" := by
  unfold authPlain
  rw [List.append_assoc, cstr_pre (by decide)]
  exact ⟨by simp [masked], by simp⟩

theorem masked_xoauth2 (c : Credential) : masked (cstr (authXOAuth2 c)) = b!"XOauth 2 ***************\r\n" ∧ cstr (authXOAuth2 c) ≠ b!"AUTH LOGIN\r\n" := by
  unfold authXOAuth2
  rw [List.append_assoc, cstr_pre (by decide)]
  exact ⟨by simp [masked, List.isPrefixOf], by simp⟩

theorem tells_login (c : Credential) (s : St) (h : Telling true s) :
    wp env (authLoginM c) (fun r s' => Telling false s' ∧ (r ≠ -81 → r ≠ -82 → Telling true s')) (fun _ => Telling false) s := by
  unfold authLoginM
  rw [wp_bind]
  refine wp_mono (tells_addLog _ h.fine) (fun _ s1 h1 => ?_) (fun _ _ h => h.telling)
  rw [wp_bind]
  refine wp_mono (tells_ptrFb (z := false) (by decide) h1 ⟨fun _ => by decide, nofun⟩) (fun c1 s2 h2 => ?_) (fun _ _ h => h)
  rw [wp_ite]
  refine ⟨fun _ => ⟨h2.1, fun h => absurd rfl h⟩, fun hc => ?_⟩
  have hc : c1 = 334 := Decidable.of_not_not hc
  subst hc
  have h3 : Tells 2 [] s2 := h2.2 (by decide) (by decide)
  rw [wp_bind]
  refine wp_mono (tells_ptrFb (z := false) (by decide) h3 ⟨nofun, nofun⟩) (fun c1 s3 h4 => ?_) (fun _ _ h => h)
  rw [wp_ite]
  refine ⟨fun _ => ⟨h4.1, fun h => absurd rfl h⟩, fun hc => ?_⟩
  have hc : c1 = 334 := Decidable.of_not_not hc
  subst hc
  have h5 : Tells 1 [] s3 := h4.2 (by decide) (by decide)
  refine wp_mono (tells_ptrFb (z := false) (by decide) h5 ⟨nofun, nofun⟩) (fun c1 s4 h6 => ?_) (fun _ _ h => h)
  refine ⟨h6.1, fun ha hb => ?_⟩
  have : Tells 0 [] s4 := h6.2 ha hb
  exact this.telling

theorem tells_authenticate (s : St) (h : Telling true s) : wp env authenticateIfNeeded LoggedIn (fun _ => Telling false) s := by
  unfold authenticateIfNeeded
  rw [wp_bind, wp_gets, wp_ite]
  refine ⟨fun _ => ?_, fun _ => ⟨h.weak, fun _ => h⟩⟩
  rw [wp_bind]
  have ha : wp env authenticateClient (fun r s' => Telling false s' ∧ (r ≠ -81 → r ≠ -82 → Telling true s')) (fun _ => Telling false) s := by
    unfold authenticateClient
    rw [wp_bind, wp_gets]
    cases s.client.credential with
    | none => exact ⟨h.weak, fun _ _ => h⟩
    | some c =>
      dsimp only
      rw [wp_bind, wp_gets]
      cases s.client.authOptions with
      | none => exact h.weak
      | some o =>
        dsimp only
        rw [wp_ite]
        refine ⟨fun _ => ?_, fun _ => ?_⟩
        · exact wp_mono (tells_credential (by rw [(masked_plain c).1]; decide) (masked_plain c).2 s h) (fun _ _ h => ⟨h.weak, fun _ _ => h⟩) (fun _ _ h => h.weak)
        rw [wp_ite]
        refine ⟨fun _ => tells_login c s h, fun _ => ?_⟩
        rw [wp_ite]
        refine ⟨fun _ => ?_, fun _ => ⟨h.weak, fun _ _ => h⟩⟩
        exact wp_mono (tells_credential (by rw [(masked_xoauth2 c).1]; decide) (masked_xoauth2 c).2 s h) (fun _ _ h => ⟨h.weak, fun _ _ => h⟩) (fun _ _ h => h.weak)
  refine wp_mono ha (fun r s1 h1 => ?_) (fun _ _ h => h)
  rw [wp_ite]
  refine ⟨fun _ => ⟨h1.1, ?_⟩, fun hr => ⟨h1.1, fun _ => ?_⟩⟩
  · rintro rfl; exact h1.2 (by decide) (by decide)
  · rw [Decidable.of_not_not hr] at h1; exact h1.2 (by decide) (by decide)

theorem tells_continue {m : M Int} (hm : Steps env (Pres (Telling true)) m) {f : Int → M Int}
    (hf : ∀ c s, Telling true s → wp env (f c) LoggedIn (fun _ => Telling false) s) (s : St) (h : Telling true s) :
    wp env (m >>= f) LoggedIn (fun _ => Telling false) s := by
  rw [wp_bind]
  exact wp_mono (Pres.use hm h) (fun c s1 h1 => hf c s1 h1) (fun _ _ h => h.weak)

theorem tells_enough {c : Int} {s : St} (h : Telling true s) : wp env (pure c) LoggedIn (fun _ => Telling false) s := ⟨h.weak, fun _ => h⟩

theorem tells_unless {p : Prop} [Decidable p] {c : Int} {m : M Int} (hm : ∀ s, Telling true s → wp env m LoggedIn (fun _ => Telling false) s) (s : St) (h : Telling true s) :
    wp env (if p then pure c else m) LoggedIn (fun _ => Telling false) s := by
  rw [wp_ite]
  exact ⟨fun _ => tells_enough h, fun _ => hm s h⟩

theorem telling_secureIdent : Steps env (Pres (Telling true)) getServerSecureIdentification := by
  unfold getServerSecureIdentification
  have := telling_identify (env := env) (-59) (-60) (by decide)
  steps [addLog_steps, this]

theorem tells_opportunistic (s : St) (h : Telling true s) : wp env establishOpportunistic LoggedIn (fun _ => Telling false) s := by
  unfold establishOpportunistic
  rw [wp_bind, wp_gets]
  cases isStartTLSSupported s.client.lastResponse with
  | error u => exact h.weak
  | ok b =>
    cases b with
    | true =>
      dsimp only
      rw [wp_bind]
      refine wp_mono (Pres.use (addLog_steps _ _) h) (fun _ s1 h1 => ?_) (fun _ _ h => h.weak)
      refine tells_continue telling_upgrade (fun _ => tells_unless ?_) s1 h1
      refine tells_continue telling_startTls (fun _ => tells_unless ?_)
      exact tells_continue telling_secureIdent (fun _ => tells_unless tells_authenticate)
    | false =>
      dsimp only
      rw [wp_bind]
      refine wp_mono (Pres.use (addLog_steps _ _) h) (fun _ s1 h1 => ?_) (fun _ _ h => h.weak)
      have : Steps env (Pres (Telling true)) (setKeepUsingBase true) := by
        unfold setKeepUsingBase
        steps [Steps.modify]
        exact Telling.client ‹_› rfl
      rw [wp_bind]
      exact wp_mono (Pres.use this h1) (fun _ _ h => ⟨h.weak, fun _ => h⟩) (fun _ _ h => h.weak)

theorem tells_forced (s : St) (h : Telling true s) : wp env establishForced LoggedIn (fun _ => Telling false) s := by
  unfold establishForced
  refine tells_continue telling_startTls (fun _ => tells_unless ?_) s h
  refine tells_continue checkServerGreetings_steps (fun _ => tells_unless ?_)
  exact tells_continue telling_secureIdent (fun _ => tells_unless tells_authenticate)

theorem tells_greeted {rest : M Int} (hr : ∀ s, Telling true s → wp env rest LoggedIn (fun _ => Telling false) s) (s : St) (h : Telling true s) :
    wp env (establishGreeted rest) LoggedIn (fun _ => Telling false) s := by
  unfold establishGreeted sendServerIdentification
  refine tells_continue checkServerGreetings_steps (fun _ => tells_unless ?_) s h
  exact tells_continue (telling_identify _ _ (by decide)) (fun _ => tells_unless hr)

theorem tells_establish (s : St) : wp env establish LoggedIn (fun _ => Telling false) s := by
  unfold establish
  rw [wp_bind]
  refine wp_mono (telling_initialize s) (fun _ s1 h1 => ?_) (fun _ _ h => h.weak)
  refine tells_unless (fun s h => ?_) s1 h1
  rw [wp_bind, wp_gets]
  cases s.client.kind with
  | smtp => exact tells_greeted tells_authenticate s h
  | opportunistic => exact tells_greeted tells_opportunistic s h
  | forced => exact tells_forced s h

/-! ### The life of a client -/

/-- If there is a log, it shows the commands; if there is none, there were none. -/
def LogShows (s : St) : Prop := (s.client.log.isSome = true → Telling false s) ∧ (s.client.log = none → transcript s.hist = (0, []))

/-- What is true between the calls. -/
def Between (s : St) : Prop := LogShows s ∧ (s.client.isConnected = true → Telling true s)

theorem Telling.log {s : St} {z : Bool} (h : Telling z s) : s.client.log ≠ none := by
  obtain ⟨n, ⟨⟨l, es, h, _⟩, _⟩, _⟩ := h
  rw [h]
  nofun

theorem Telling.shows {s : St} {z : Bool} (h : Telling z s) : LogShows s := ⟨fun _ => h.weak, fun h' => absurd h' h.log⟩

theorem Between.client {s : St} (h : Between s) {c : Client} {m : List SessionOp} (hl : c.log = s.client.log) (hc : c.isConnected = s.client.isConnected) :
    Between { s with client := c, mem := m } := by
  refine ⟨⟨fun h' => (h.1.1 ?_).client hl, fun h' => h.1.2 ?_⟩, fun h' => (h.2 ?_).client hl⟩
  · rw [← hl]; exact h'
  · rw [← hl]; exact h'
  · rw [← hc]; exact h'

theorem Between.event {s : St} (h : Between s) {e : Ev} (he : ∀ t, transcriptStep t e = t) : Between (St.snoc s e) := by
  refine ⟨⟨fun h' => (h.1.1 h').event he, fun h' => ?_⟩, fun h' => (h.2 h').event he⟩
  show transcript (s.hist ++ [e]) = _
  rw [transcript_snoc, he, h.1.2 h']

theorem between_sendMail (m : Message) (s : St) (h : Between s) : wp env (sendMail m) (fun _ => Between) (fun _ => LogShows) s := by
  have conn : ∀ s, Telling true s → wp env (sendMailConnected m) (fun _ => Between) (fun _ => LogShows) s := fun s h =>
    wp_mono (Pres.use (telling_mail m) h) (fun _ _ h => ⟨h.shows, fun _ => h⟩) (fun _ _ h => h.shows)
  unfold sendMail
  rw [wp_bind, wp_gets, wp_ite]
  refine ⟨fun hc => conn s (h.2 hc), fun hc => ?_⟩
  have off : Off s := by
    unfold Off
    cases hb : s.client.isConnected
    · rfl
    · exact absurd hb hc
  rw [wp_bind]
  have hs : Steps env StaysOff establish := establish_steps
  refine wp_mono (wp_and (tells_establish s) (hs.run s)) (fun c s1 h1 => ?_) (fun _ _ h => h.1.shows)
  obtain ⟨⟨h1, h2⟩, h3⟩ := h1
  rw [wp_ite]
  refine ⟨fun _ => ⟨h1.shows, fun hc => ?_⟩, fun hc => conn s1 (h2 (Decidable.of_not_not hc))⟩
  have := h3 off
  rw [Off, hc] at this
  cases this

theorem between_inv : CallInv env (fun _ => True) Between LogShows where
  stop := fun _ h => h.1
  event := fun _ _ _ h => h.event fun _ => rfl
  serverName := fun _ _ h => h.client rfl rfl
  port := fun _ _ h => h.client rfl rfl
  batch := fun _ _ h => h.client rfl rfl
  timeout := fun _ _ h => h.client rfl rfl
  credential := fun _ _ h => h.client rfl rfl
  keep := fun _ _ _ h => h.client rfl rfl
  accept := fun s b h => (h.event (e := .call (.setAcceptSelfSignedCert b)) fun _ => rfl).client (m := s.mem) rfl rfl
  sendMail := fun s m _ h => between_sendMail m s h

theorem between_new {kind : Kind} {p : Option Bytes} {port : Nat} {c : Client} (h : Client.new kind p port = .ok c) :
    Between { client := c, hist := [] } := by
  unfold Client.new at h
  split at h
  · cases h
  · cases h
    exact ⟨⟨nofun, fun _ => rfl⟩, nofun⟩

theorem shows_destroy (s : St) (h : Between s) : wp env cleanup (fun _ => LogShows) (fun _ => LogShows) (St.snoc s .destroy) := by
  have h := h.event (e := .destroy) fun _ => rfl
  generalize St.snoc s .destroy = s1 at h
  cases hl : s1.client.log with
  | some l => exact wp_mono (Pres.use telling_cleanup (h.1.1 (by rw [hl]; rfl))) (fun _ _ h => h.shows) (fun _ _ h => h.shows)
  | none =>
    have hc : s1.client.isConnected = false := by
      cases hb : s1.client.isConnected
      · rfl
      · exact absurd hl (h.2 hb).log
    unfold cleanup
    rw [wp_bind, wp_env]
    cases env.depth with
    | zero => exact h.1
    | succ n =>
      unfold cleanupN
      rw [wp_bind, wp_gets, wp_bind, wp_gets, hc, Bool.and_false]
      unfold wp
      rw [if_neg (by decide), closeSession_run]
      refine ⟨fun h' => ?_, fun _ => ?_⟩
      · rw [show (closedClient s1.client).log = none from (closedClient_log _).trans hl] at h'
        cases h'
      · show transcript (s1.hist ++ closingEvs s1.client) = _
        rw [transcript_append (closing_neutral _), h.1.2 hl]

/-- Whatever calls are made: the log, if there is one, shows the commands. -/
theorem shows_runCalls (cs : List Call) (s : St) (h : Between s) : LogShows (runCalls cs env s).2 :=
  state_of (wp_mono (between_inv.runCalls cs (fun _ _ => trivial) s h) (fun _ _ h => h.1) (fun _ _ h => h))

theorem shows_life (cs : List Call) (s : St) (h : Between s) : LogShows (life cs env s).2 :=
  between_inv.life shows_destroy cs (fun _ _ => trivial) s h

theorem LogShows.tells {s : St} (h : LogShows s) : match s.client.log with
    | some l => LogTells l.content s.hist
    | none => (transcript s.hist).2 = [] := by
  cases hl : s.client.log with
  | none => exact congrArg Prod.snd (h.2 hl)
  | some l =>
    obtain ⟨n, ⟨⟨l', es, h1, _, h3, h4⟩, _⟩, _⟩ := h.1 (by rw [hl]; rfl)
    rw [hl] at h1
    cases h1
    exact ⟨es, h3, by rw [List.append_nil] at h4; exact h4⟩

end Verif.Proofs
