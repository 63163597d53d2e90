import Verif.Spec.Cooperation
import Verif.Props.StartTls
import Verif.Proofs.Close
import Verif.Proofs.Faults
/-!
# Sending in a world in which nothing goes wrong

Forward reasoning: `Live c0 ch n s` describes the state inside a session, `Runs` follows the code from there.
-/
namespace Verif.Proofs
open Verif Verif.Model Verif.Spec Verif.Props

variable {env : Env} {T : Nat}

/-! ### Reads -/

theorem gives_ext {ch : Chan} {rs : List RecvRes} {h e : Hist} (hf : Gives env ch rs h) (he : ∀ x ∈ e, isPause x = true) :
    Gives env ch rs (h ++ e) := by
  cases rs with
  | nil => trivial
  | cons r rs =>
    intro e' he'
    rw [List.append_assoc]
    exact hf (e ++ e') (by
      intro x hx
      rcases List.mem_append.mp hx with hx | hx
      · exact he x hx
      · exact he' x hx)

theorem gives_snoc {ch : Chan} {rs : List RecvRes} {s : St} {e : Ev} (hf : Gives env ch rs s.hist) (he : isPause e = true) :
    Gives env ch rs (St.snoc s e).hist := gives_ext hf (by simpa using he)

theorem sysRecv_gives {ch : Chan} {s : St} {r : RecvRes} {rs : List RecvRes} (hf : Gives env ch (r :: rs) s.hist) (hr : r ≠ .never) :
    Runs env (sysRecv ch) (fun a s' => a = r ∧ s' = St.snoc s (.recv ch r) ∧ Gives env ch rs s'.hist) s := by
  have := hf [] (by simp)
  simp only [List.append_nil] at this
  obtain ⟨h1, h2⟩ := this
  unfold sysRecv
  apply runs_bind
  have e : (M.ask (fun e h => normRecv (nonblocking ch.fd h) (e.recv h ch)) (.recv ch)) env s = (.ok r, St.snoc s (.recv ch r)) := by
    unfold answer at h1
    unfold M.ask St.snoc
    dsimp only
    rw [h1]
  refine runs_iff.mpr ⟨_, _, e, ?_⟩
  rw [if_neg hr]
  exact ⟨rfl, rfl, h2⟩

theorem dialogue_snoc (s : St) (e : Ev) : dialogue (St.snoc s e).hist = dialogueStep (dialogue s.hist) e := by
  simp [dialogue, St.snoc]

theorem dialogue_append (h : Hist) (e : Ev) : dialogue (h ++ [e]) = dialogueStep (dialogue h) e := by simp [dialogue]

/-- The second state comes from the first by waiting and reading. -/
def Listened (s s' : St) : Prop := s'.client = s.client ∧ dialogue s'.hist = dialogue s.hist

theorem Listened.refl (s : St) : Listened s s := ⟨rfl, rfl⟩
theorem Listened.trans {a b c : St} (h : Listened a b) (h' : Listened b c) : Listened a c := ⟨h'.1.trans h.1, h'.2.trans h.2⟩
theorem Listened.recv {s : St} {ch : Chan} {r : RecvRes} : Listened s (St.snoc s (.recv ch r)) := ⟨rfl, dialogue_snoc _ _⟩
theorem Listened.sleep {s : St} : Listened s (St.snoc s .sleep) := ⟨rfl, dialogue_snoc _ _⟩

theorem rawReplyLoop_given (chunks : List Bytes) (hc : ∀ c ∈ chunks, c.length < 1024 ∧ 0 ∉ c)
    (n wait : Nat) (acc : Bytes) (got : Bool) (s : St) (hn : chunks.length < n) (hw : wait < s.client.timeout)
    (hg : chunks ≠ [] ∨ got = true) (hf : Gives env (.raw s.client.sock) (chunks.map .data ++ [.err]) s.hist) :
    Runs env (rawReplyLoop n wait acc got) (fun a s' => a = (wait, acc ++ chunks.flatten, true) ∧ Listened s s') s := by
  induction chunks generalizing n acc got s with
  | nil =>
    obtain ⟨n, rfl⟩ : ∃ n', n = n' + 1 := ⟨n - 1, by simp at hn; omega⟩
    unfold rawReplyLoop
    apply runs_get
    apply runs_get
    apply runs_bind
    refine runs_mono (sysRecv_gives hf (by simp)) ?_
    rintro _ s' ⟨rfl, rfl, hf'⟩
    have : got = true := by simpa using hg
    subst this
    exact ⟨by simp, .recv⟩
  | cons c cs ih =>
    obtain ⟨n, rfl⟩ : ∃ n', n = n' + 1 := ⟨n - 1, by simp at hn; omega⟩
    unfold rawReplyLoop
    apply runs_get
    apply runs_get
    apply runs_bind
    refine runs_mono (sysRecv_gives hf (by simp)) ?_
    rintro _ s' ⟨rfl, rfl, hf'⟩
    have hc1 := hc c (by simp)
    dsimp only
    rw [if_neg (by omega), if_pos hw]
    refine runs_mono (ih (fun c' h' => hc c' (by simp [h'])) n (acc ++ cstr c) true _ (by simp at hn; omega) hw (.inr rfl) hf') ?_
    rintro _ s' ⟨rfl, h2⟩
    rw [cstr_eq_self hc1.2]
    exact ⟨by simp, Listened.recv.trans h2⟩

theorem rawReplyLoop_waited (w : List RecvRes) (hw : ∀ r ∈ w, r = .eof ∨ r = .err) (chunks : List Bytes)
    (hc : ∀ c ∈ chunks, c.length < 1024 ∧ 0 ∉ c) (hne : chunks ≠ [])
    (n wait : Nat) (s : St) (hn : w.length + chunks.length < n) (ht : wait + w.length < s.client.timeout)
    (hf : Gives env (.raw s.client.sock) (w ++ (chunks.map .data ++ [.err])) s.hist) :
    Runs env (rawReplyLoop n wait [] false) (fun a s' => (∃ k, k < s.client.timeout ∧ a = (k, chunks.flatten, true)) ∧
      Listened s s') s := by
  induction w generalizing n wait s with
  | nil =>
    refine runs_mono (rawReplyLoop_given chunks hc n wait [] false s (by simp at hn; omega) (by simpa using ht) (.inl hne) hf) ?_
    rintro _ s' ⟨rfl, h2⟩
    exact ⟨⟨wait, by simpa using ht, by simp⟩, h2⟩
  | cons r w ih =>
    obtain ⟨n, rfl⟩ : ∃ n', n = n' + 1 := ⟨n - 1, by simp at hn; omega⟩
    simp only [List.length_cons] at hn ht
    unfold rawReplyLoop
    apply runs_get
    apply runs_get
    apply runs_bind
    have hr := hw r (by simp)
    refine runs_mono (sysRecv_gives hf (by rcases hr with rfl | rfl <;> simp)) ?_
    rintro r' s' ⟨hrr, rfl, hf'⟩
    subst r'
    have key : Runs env (do sysSleep; if wait + 1 < s.client.timeout then rawReplyLoop n (wait + 1) [] false else pure (wait + 1, [], false))
        (fun a s' => (∃ k, k < s.client.timeout ∧ a = (k, chunks.flatten, true)) ∧ Listened s s') (St.snoc s (.recv (.raw s.client.sock) r)) := by
      apply runs_bind
      show Runs env _ _ (St.snoc (St.snoc s (.recv (.raw s.client.sock) r)) .sleep)
      rw [if_pos (by omega)]
      refine runs_mono (ih (fun r' h' => hw r' (by simp [h'])) n (wait + 1) (St.snoc (St.snoc s (.recv (.raw s.client.sock) r)) .sleep) (by omega)
        (by show wait + 1 + w.length < s.client.timeout; omega) (gives_snoc hf' rfl)) ?_
      rintro a s' ⟨h1, h2⟩
      exact ⟨h1, Listened.recv.trans (Listened.sleep.trans h2)⟩
    rcases hr with rfl | rfl
    · dsimp only
      rw [if_neg (by simp)]
      exact key
    · dsimp only
      rw [if_neg (by simp)]
      exact key

theorem waitLoop_given {ch : Chan} {p : Bytes} {read : M RecvRes} (w : List RecvRes)
    (hw : ∀ r ∈ w, r = .eof ∨ r = .err) (t : Nat) (ht : w.length < t) (s : St)
    (hr : ∀ s' : St, s'.client = s.client → read env s' = sysRecv ch env s')
    (hf : Gives env ch (w ++ [.data p]) s.hist) :
    Runs env (waitLoop read t) (fun a s' => a = some p ∧ Listened s s') s := by
  induction w generalizing t s with
  | nil =>
    obtain ⟨t, rfl⟩ : ∃ t', t = t' + 1 := ⟨t - 1, by simp at ht; omega⟩
    unfold waitLoop
    apply runs_bind
    show wp env read _ _ s
    unfold wp
    rw [hr s rfl]
    refine runs_mono (sysRecv_gives hf (by simp)) ?_
    rintro _ s' ⟨rfl, rfl, hf'⟩
    exact ⟨rfl, .recv⟩
  | cons r w ih =>
    obtain ⟨t, rfl⟩ : ∃ t', t = t' + 1 := ⟨t - 1, by simp at ht; omega⟩
    simp only [List.length_cons] at ht
    unfold waitLoop
    apply runs_bind
    show wp env read _ _ s
    unfold wp
    rw [hr s rfl]
    have hr' := hw r (by simp)
    refine runs_mono (sysRecv_gives hf (by rcases hr' with rfl | rfl <;> simp)) ?_
    rintro r' s' ⟨hrr, rfl, hf'⟩
    subst r'
    have key : Runs env (do sysSleep; waitLoop read t) (fun a s' => a = some p ∧ Listened s s') (St.snoc s (.recv ch r)) := by
      apply runs_bind
      show Runs env _ _ (St.snoc (St.snoc s (.recv ch r)) .sleep)
      refine runs_mono (ih (fun r' h' => hw r' (by simp [h'])) t (by omega) (St.snoc (St.snoc s (.recv ch r)) .sleep) (fun s' h => hr s' h)
        (gives_snoc hf' rfl)) ?_
      rintro a s' ⟨h1, h2⟩
      exact ⟨h1, Listened.recv.trans (Listened.sleep.trans h2)⟩
    rcases hr' with rfl | rfl
    · exact key
    · exact key

/-! ### The state of a session -/

/-- The object is `c0` up to log and last response; `n` lines of an AUTH LOGIN are still to come; if the channel is in clear, TLS is not in use. -/
structure Live (c0 : Client) (ch : Chan) (n : Nat) (s : St) : Prop where
  client : ∃ l r, s.client = { c0 with log := some l, lastResponse := r } ∧ LogOk l
  lines : (dialogue s.hist).1 = n
  clear : ∀ fd, ch = .raw fd → (dialogue s.hist).2 = false

variable {c0 : Client} {ch : Chan} {n : Nat} {s : St}

theorem Live.listened {s' : St} (h : Live c0 ch n s) (hl : Listened s s') : Live c0 ch n s' := by
  obtain ⟨h1, h2⟩ := hl
  exact ⟨by rw [h1]; exact h.client, by rw [h2]; exact h.lines, by rw [h2]; exact h.clear⟩

theorem Live.hasLog (h : Live c0 ch n s) : HasLog s := by
  obtain ⟨l, r, e, ho⟩ := h.client
  exact ⟨l, by rw [e], ho⟩

theorem Live.of_eq (h : Live c0 ch n s) {s' : St} {l : Log} {r : Option Bytes} (hc : s'.client = { s.client with log := some l, lastResponse := r })
    (ho : LogOk l) (hd : dialogue s'.hist = dialogue s.hist) : Live c0 ch n s' := by
  obtain ⟨l', r', e, ho'⟩ := h.client
  exact ⟨⟨l, r, by rw [hc, e], ho⟩, by rw [hd]; exact h.lines, by rw [hd]; exact h.clear⟩

theorem addLog_live (h : Live c0 ch n s) (i p : Bytes) : Runs env (addLog i p) (fun _ s' => Live c0 ch n s' ∧ s'.client.lastResponse = s.client.lastResponse) s :=
  Proofs.wp_addLog h.hasLog fun _ _ hl => ⟨h.of_eq rfl hl rfl, rfl⟩

/-- The next thing the code does is to write to the log. -/
theorem runs_log {α : Type} {f : Unit → M α} {Q : α → St → Prop} {i p : Bytes} (h : Live c0 ch n s)
    (hq : ∀ s', Live c0 ch n s' → s'.client.lastResponse = s.client.lastResponse → Runs env (f ()) Q s') : Runs env (addLog i p >>= f) Q s := by
  apply runs_bind
  exact runs_mono (addLog_live h i p) fun _ s' h' => hq s' h'.1 h'.2

theorem fcntl_exact (hw : Works env) (s : St) :
    setNonBlocking env s = (.ok 0, St.snoc (St.snoc s (.fcntlGet s.client.sock .ok)) (.fcntlSet s.client.sock true .ok)) ∧
    setBlocking env s = (.ok 0, St.snoc (St.snoc s (.fcntlGet s.client.sock .ok)) (.fcntlSet s.client.sock false .ok)) := by
  constructor
  · simp [setNonBlocking, sysFcntlGet, sysFcntlSet, logIfErr, bind_run, gets_run, M.ask, hw.fcntlGet, hw.fcntlSet, St.snoc, pure_run]
  · simp [setBlocking, sysFcntlGet, sysFcntlSet, bind_run, gets_run, M.ask, hw.fcntlGet, hw.fcntlSet, St.snoc, pure_run]

theorem code_of {code t : Bytes} (h3 : code.length = 3) (h0 : 0 ∉ code) (h : code <+: t) : extractReturnCode (some t) = extractReturnCode (some code) := by
  obtain ⟨r, rfl⟩ := h
  obtain ⟨a, b, c, rfl⟩ : ∃ a b c, code = [a, b, c] := by
    match code, h3 with
    | [a, b, c], _ => exact ⟨a, b, c, rfl⟩
  simp only [List.mem_cons, List.not_mem_nil, or_false, not_or] at h0
  obtain ⟨ha, hb, hc⟩ := h0
  have e : ∀ x : Bytes, cstr (a :: b :: c :: x) = a :: b :: c :: cstr x := by
    intro x
    simp [cstr, List.takeWhile, Ne.symm ha, Ne.symm hb, Ne.symm hc]
  simp only [extractReturnCode, List.cons_append, List.nil_append, e, List.take, List.length_cons]
  simp

theorem getRawReply_live (hw : Works env) {p code : Bytes} {rs : List RecvRes} (h : Live c0 ch n s) (hT : T ≤ c0.timeout)
    (hd : ClearBatch T p rs) (h0 : 0 ∉ p) (h3 : code.length = 3) (hc : code <+: p) (hfuel : rs.length ≤ env.fuel)
    (hf : Gives env (.raw c0.sock) rs s.hist) :
    Runs env getRawReply (fun c s' => c = extractReturnCode (some code) ∧ Live c0 ch n s' ∧ s'.client.lastResponse = some p) s := by
  obtain ⟨w, chunks, ⟨hw1, hw2⟩, hne, hlen, rfl, rfl⟩ := hd
  obtain ⟨l0, r0, e0, ho0⟩ := h.client
  have hsock : s.client.sock = c0.sock := by rw [e0]
  have htime : s.client.timeout = c0.timeout := by rw [e0]
  unfold getRawReply
  apply runs_bind
  refine runs_iff.mpr ⟨_, _, (fcntl_exact hw s).1, ?_⟩
  have hl1 : Listened s (St.snoc (St.snoc s (.fcntlGet s.client.sock .ok)) (.fcntlSet s.client.sock true .ok)) :=
    ⟨rfl, by rw [dialogue_snoc, dialogue_snoc]; rfl⟩
  apply runs_bind
  show Runs env _ _ _
  apply runs_bind
  have hz : ∀ c ∈ chunks, 0 ∉ c := by
    intro c hc hm
    exact h0 (List.mem_flatten.mpr ⟨c, hc, hm⟩)
  simp only [List.length_append, List.length_map, List.length_cons, List.length_nil] at hfuel
  have hf' : Gives env (.raw s.client.sock) (w ++ (chunks.map .data ++ [.err])) s.hist := by rw [hsock]; simpa using hf
  refine runs_mono (rawReplyLoop_waited w hw2 chunks (fun c hc => ⟨hlen c hc, hz c hc⟩) hne env.fuel 0 _ (by omega)
    (by show 0 + w.length < s.client.timeout; omega) (gives_snoc (gives_snoc hf' rfl) rfl)) ?_
  rintro _ s2 ⟨⟨k, hk, rfl⟩, hl2⟩
  dsimp only
  apply runs_bind
  refine runs_iff.mpr ⟨_, _, (fcntl_exact hw s2).2, ?_⟩
  have hl3 : Listened s (St.snoc (St.snoc s2 (.fcntlGet s2.client.sock .ok)) (.fcntlSet s2.client.sock false .ok)) :=
    (hl1.trans hl2).trans ⟨rfl, by rw [dialogue_snoc, dialogue_snoc]; rfl⟩
  generalize St.snoc (St.snoc s2 (.fcntlGet s2.client.sock .ok)) (.fcntlSet s2.client.sock false .ok) = s3 at hl3
  apply runs_get
  rw [if_pos (.inr rfl)]
  apply runs_bind
  show Runs env _ _ { s3 with client := { s3.client with lastResponse := some (cstr chunks.flatten) }, mem := s3.mem ++ [.response (cstr chunks.flatten)] }
  have h3l := h.listened hl3
  obtain ⟨l, hlog, ho⟩ := h3l.hasLog
  refine runs_log (h3l.of_eq (l := l) (r := some (cstr chunks.flatten)) (by rw [← hlog]) ho rfl) fun s4 h4 hr4 => ?_
  refine ⟨code_of h3 (fun hz => h0 (hc.subset hz)) hc, h4, ?_⟩
  rw [hr4]
  show some (cstr chunks.flatten) = _
  rw [cstr_eq_self h0]

theorem getTlsReply_live {b : Bio} {p code : Bytes} {rs : List RecvRes} (h : Live c0 ch n s) (hT : T ≤ c0.timeout) (hb : c0.bio = some b)
    (hd : TlsRecord T p rs) (h0 : 0 ∉ p) (h3 : code.length = 3) (hc : code <+: p.dropLast)
    (hf : Gives env (.tls b.id b.fd) rs s.hist) :
    Runs env getTlsReply (fun c s' => c = extractReturnCode (some code) ∧ Live c0 ch n s' ∧ s'.client.lastResponse = some p.dropLast) s := by
  obtain ⟨w, ⟨hw1, hw2⟩, rfl⟩ := hd
  obtain ⟨l0, r0, e0, ho0⟩ := h.client
  have hbio : s.client.bio = some b := by rw [e0]; exact hb
  have htime : s.client.timeout = c0.timeout := by rw [e0]
  unfold getTlsReply
  apply runs_get
  apply runs_bind
  have hread : ∀ s' : St, s'.client = s.client → bioRead env s' = sysRecv (.tls b.id b.fd) env s' := by
    intro s' h
    unfold bioRead
    rw [bind_run, gets_run, h, hbio]
  refine runs_mono (waitLoop_given w hw2 s.client.timeout (by omega) s hread (by simpa using hf)) ?_
  rintro _ s2 ⟨rfl, hl2⟩
  dsimp only
  have h0' : 0 ∉ p.dropLast := fun h => h0 (List.dropLast_subset _ h)
  have ht : bufferText p = p.dropLast := cstr_eq_self h0'
  rw [ht]
  apply runs_bind
  show Runs env _ _ { s2 with client := { s2.client with lastResponse := some (cstr p.dropLast) }, mem := s2.mem ++ [.response (cstr p.dropLast)] }
  have h2 := h.listened hl2
  obtain ⟨l, hlog, ho⟩ := h2.hasLog
  refine runs_log (h2.of_eq (l := l) (r := some (cstr p.dropLast)) (by rw [← hlog]) ho rfl) fun s4 h4 hr4 => ?_
  refine ⟨code_of h3 (fun hz => h0' (hc.subset hz)) hc, h4, ?_⟩
  rw [hr4]
  show some (cstr p.dropLast) = _
  rw [cstr_eq_self h0']

/-! ### Commands and their replies -/

theorem acceptance_code {d code : Bytes} (h : acceptance n d = some code) :
    code.length = 3 ∧ extractReturnCode (some code) ≠ -1 := by
  unfold acceptance at h
  repeat (split at h; · cases h; exact ⟨rfl, by decide⟩)
  cases h

theorem reply_wire {code : Bytes} {ls : List Bytes} (h : ReplyLines code ls) :
    0 ∉ wire ls ∧ code <+: wire ls ∧ code <+: (wire ls).dropLast := by
  refine ⟨wire_no_nul _ fun l hl h0 => (h.plain l hl 0 h0).1 rfl, ?_⟩
  have key : ∃ r, wire ls = code ++ r ∧ r ≠ [] := by
    obtain ⟨init, last, rfl, h1, h2⟩ := h.shape
    cases init with
    | nil =>
      obtain ⟨r, hr⟩ := h2
      exact ⟨b!" " ++ r ++ [13, 10], by simp [wire, ← hr], by simp⟩
    | cons l init =>
      obtain ⟨r, hr⟩ := h1 l (by simp)
      exact ⟨b!"-" ++ r ++ 13 :: 10 :: wire (init ++ [last]), by simp [wire_cons, ← hr], by simp⟩
  obtain ⟨r, e, hr⟩ := key
  rw [e]
  exact ⟨⟨r, rfl⟩, ⟨r.dropLast, by rw [List.dropLast_append_of_ne_nil hr]⟩⟩

theorem sendRawWith_works (hw : Works env) (f : M Unit) (k : SendKind) (d : Bytes) (err : Int) (s : St) :
    sendRawWith f k d err env s = (.ok 0, St.snoc s (.send k (.raw s.client.sock) (cstr d) (.sent (cstr d).length))) := by
  simp [sendRawWith, sysSend, bind_run, gets_run, M.ask, hw.send, normSend, pure_run, St.snoc]

theorem sendBioWith_works (hw : Works env) (f : M Unit) (k : SendKind) (d : Bytes) (err : Int) (s : St) {b : Bio} (hb : s.client.bio = some b) :
    sendBioWith f k d err env s = (.ok 0, St.snoc s (.send k (.tls b.id b.fd) (cstr d) (.sent (cstr d).length))) := by
  simp [sendBioWith, sysSend, bind_run, gets_run, hb, M.ask, hw.send, normSend, pure_run, St.snoc]

theorem Live.said (h : Live c0 ch n s) (ch' : Chan) (d : Bytes) (r : SendRes) :
    Live c0 ch (loginLines n d) (St.snoc s (.send .cmd ch' d r)) := by
  refine ⟨h.client, ?_, ?_⟩
  · rw [dialogue_snoc]
    show loginLines (dialogue s.hist).1 d = _
    rw [h.lines]
  · intro fd e
    rw [dialogue_snoc]
    exact h.clear fd e

theorem Live.quiet (h : Live c0 ch n s) {e : Ev} (he : ∀ p, dialogueStep p e = p) : Live c0 ch n (St.snoc s e) :=
  h.of_eq (s' := St.snoc s e) (l := h.client.choose) (r := s.client.lastResponse) (by
    obtain ⟨r, hr, _⟩ := h.client.choose_spec
    have : s.client.log = some h.client.choose := by
      generalize h.client.choose = l at hr
      rw [hr]
    show s.client = _
    rw [← this]) (by obtain ⟨r, _, ho⟩ := h.client.choose_spec; exact ho) (by rw [dialogue_snoc, he])

variable {k : Kind} {tls? : Bool} {C : Credential → Prop}

/-- What a command with a reply does: the reply is the acceptance, its text is known, the dialogue has gone on. -/
def Welcomed (k : Kind) (tls? : Bool) (C : Credential → Prop) (c0 : Client) (ch : Chan) (n : Nat) (d code : Bytes) (c : Int) (s' : St) : Prop :=
  c = extractReturnCode (some code) ∧ Live c0 ch (loginLines n d) s' ∧
    ∃ ls, ReplyLines code ls ∧ (n = 0 → d = b!"ehlo localhost\r\n" → Introduces k tls? C ls ch) ∧
      s'.client.lastResponse = some (match ch with | .raw _ => wire ls | .tls _ _ => (wire ls).dropLast)

theorem sendRawFb_live (hw : Works env) (ha : Accepts env k T tls? C) {d code : Bytes} (e t : Int) (h : Live c0 ch n s) (hT : T ≤ c0.timeout)
    (hch : ch = .raw c0.sock) (hd : acceptance n (cstr d) = some code) :
    Runs env (sendRawFb d e t) (Welcomed k tls? C c0 ch n (cstr d) code) s := by
  subst hch
  obtain ⟨h3, hm1⟩ := acceptance_code hd
  obtain ⟨ls, rs, hls, hin, harr, hfuel, hg⟩ := ha.answers s.hist (.raw c0.sock) (cstr d) code (by rw [h.lines]; exact hd) h.clear
  obtain ⟨h0, hp, _⟩ := reply_wire hls
  obtain ⟨l0, r0, e0, ho0⟩ := h.client
  have hsock : s.client.sock = c0.sock := by rw [e0]
  unfold sendRawFb sendRaw
  apply runs_bind
  refine runs_iff.mpr ⟨_, _, sendRawWith_works hw _ _ _ _ _, ?_⟩
  rw [if_neg (by simp), hsock]
  apply runs_bind
  refine runs_mono (getRawReply_live hw (h.said _ _ _) hT harr h0 h3 hp hfuel hg) ?_
  rintro c s' ⟨rfl, h', hr⟩
  rw [if_pos hm1]
  exact ⟨rfl, h', ls, hls, fun hn => hin (by rw [h.lines]; exact hn), hr⟩

theorem sendTlsFb_live (hw : Works env) (ha : Accepts env k T tls? C) {d code : Bytes} {b : Bio} (e t : Int) (h : Live c0 ch n s) (hT : T ≤ c0.timeout)
    (hb : c0.bio = some b) (hch : ch = .tls b.id b.fd) (hd : acceptance n (cstr d) = some code) :
    Runs env (sendTlsFb d e t) (Welcomed k tls? C c0 ch n (cstr d) code) s := by
  subst hch
  obtain ⟨h3, hm1⟩ := acceptance_code hd
  obtain ⟨ls, rs, hls, hin, harr, hfuel, hg⟩ := ha.answers s.hist (.tls b.id b.fd) (cstr d) code (by rw [h.lines]; exact hd) h.clear
  obtain ⟨h0, _, hp⟩ := reply_wire hls
  obtain ⟨l0, r0, e0, ho0⟩ := h.client
  have hbio : s.client.bio = some b := by rw [e0]; exact hb
  unfold sendTlsFb
  apply runs_bind
  refine runs_iff.mpr ⟨_, _, sendBioWith_works hw _ _ _ _ _ hbio, ?_⟩
  rw [if_neg (by simp)]
  apply runs_bind
  refine runs_mono (getTlsReply_live (h.said _ _ _) hT hb harr h0 h3 hp hg) ?_
  rintro c s' ⟨rfl, h', hr⟩
  rw [if_pos hm1]
  exact ⟨rfl, h', ls, hls, fun hn => hin (by rw [h.lines]; exact hn), hr⟩

/-- On which channel the commands of an open session go: in clear, or over TLS. -/
def Speaks72 (c : Client) (ch : Chan) : Prop :=
  (ch = .raw c.sock ∧ (c.kind = .smtp ∨ c.ptrRaw = true)) ∨ ∃ b, c.bio = some b ∧ ch = .tls b.id b.fd ∧ c.kind ≠ .smtp ∧ c.ptrRaw = false

theorem sendPtrFb_live (hw : Works env) (ha : Accepts env k T tls? C) {d code : Bytes} (e t : Int) (h : Live c0 ch n s) (hT : T ≤ c0.timeout)
    (hs : Speaks72 c0 ch) (hd : acceptance n (cstr d) = some code) :
    Runs env (sendPtrFb d e t) (Welcomed k tls? C c0 ch n (cstr d) code) s := by
  obtain ⟨l0, r0, e0, ho0⟩ := h.client
  unfold sendPtrFb sendFb
  apply runs_get
  rcases hs with ⟨hch, hk⟩ | ⟨b, hb, hch, hk, hp⟩
  · have := sendRawFb_live hw ha e t h hT hch hd
    split
    · exact this
    · apply runs_get
      apply runs_get
      rw [if_pos]
      · exact this
      · rw [e0] at *
        rcases hk with hk | hk <;> simp_all
  · rw [if_neg (by rw [e0]; simp [hp])]
    apply runs_get
    apply runs_get
    rw [if_neg (by rw [e0]; simp [hk, hb])]
    exact sendTlsFb_live hw ha e t h hT hb hch hd

theorem sendPtr_live (hw : Works env) (f : M Unit) (kd : SendKind) (hkd : kd ≠ .cmd) (d : Bytes) (e : Int) (h : Live c0 ch n s) (hs : Speaks72 c0 ch) :
    Runs env (sendPtrWith f kd d e) (fun r s' => r = 0 ∧ Live c0 ch n s' ∧ s'.client = s.client) s := by
  obtain ⟨l0, r0, e0, ho0⟩ := h.client
  unfold sendPtrWith
  apply runs_get
  apply runs_get
  have hq : ∀ ch' d' r p, dialogueStep p (.send kd ch' d' r) = p := by
    intro ch' d' r p
    cases kd
    · exact absurd rfl hkd
    · rfl
    · rfl
  rcases hs with ⟨hch, hk⟩ | ⟨b, hb, hch, hk, hp⟩
  · rw [if_pos (by rw [e0]; rcases hk with hk | hk <;> simp [hk])]
    exact runs_iff.mpr ⟨_, _, sendRawWith_works hw _ _ _ _ _, rfl, h.quiet (hq _ _ _), rfl⟩
  · rw [if_neg (by rw [e0]; simp [hk, hp])]
    exact runs_iff.mpr ⟨_, _, sendBioWith_works hw _ _ _ _ _ (by rw [e0]; exact hb), rfl, h.quiet (hq _ _ _), rfl⟩

/-! ### A mail on an open session -/

theorem accept_mail (x : Bytes) : acceptance 0 (b!"MAIL FROM:" ++ x) = some b!"250" := by simp [acceptance]
theorem accept_rcpt (x : Bytes) : acceptance 0 (b!"RCPT TO:" ++ x) = some b!"250" := by simp [acceptance]
theorem accept_auth (x : Bytes) (h : ¬ b!"LOGIN" <+: x) : acceptance 0 (b!"AUTH " ++ x) = some b!"235" := by
  have : b!"AUTH " ++ x ≠ b!"AUTH LOGIN\r\n" := by
    intro e
    apply h
    have e' : b!"AUTH " ++ x = b!"AUTH " ++ b!"LOGIN\r\n" := e
    rw [List.append_cancel_left e']
    exact ⟨[13, 10], rfl⟩
  unfold acceptance
  rw [if_neg (by decide), if_neg (by decide), if_neg (by simp), if_neg (by simp), if_neg this, if_pos (by simp)]

theorem cstr_prefix72 {p : Bytes} (h : 0 ∉ p) (x : Bytes) : cstr (p ++ x) = p ++ cstr x := by
  induction p with
  | nil => rfl
  | cons c p ih =>
    simp only [List.mem_cons, not_or] at h
    have : cstr (c :: p ++ x) = c :: cstr (p ++ x) := by simp [cstr, List.takeWhile, Ne.symm h.1]
    rw [this, ih h.2]
    rfl

theorem loginLines_other {d : Bytes} (h : d ≠ b!"AUTH LOGIN\r\n") : loginLines 0 d = 0 := if_neg h

/-- What is fixed during a session. -/
structure Session (env : Env) (k : Kind) (T : Nat) (tls? : Bool) (C : Credential → Prop) (c0 : Client) (ch : Chan) : Prop where
  works : Works env
  accepts : Accepts env k T tls? C
  time : T ≤ c0.timeout
  speaks : Speaks72 c0 ch

variable (hS : Session env k T tls? C c0 ch)
include hS

/-- An ordinary command is accepted. -/
theorem command_live {d code : Bytes} (e t : Int) (h : Live c0 ch 0 s) (hd : acceptance 0 (cstr d) = some code)
    (hl : cstr d ≠ b!"AUTH LOGIN\r\n") :
    Runs env (sendPtrFb d e t) (fun c s' => c = extractReturnCode (some code) ∧ Live c0 ch 0 s') s := by
  refine runs_mono (sendPtrFb_live hS.works hS.accepts e t h hS.time hS.speaks hd) ?_
  rintro c s' ⟨h1, h2, _⟩
  rw [loginLines_other hl] at h2
  exact ⟨h1, h2⟩

theorem mailFrom_live (h : Live c0 ch 0 s) (z : Int) (f : MessageAddress) :
    Runs env (mailFromLoop z (mailFormats f)) (fun c s' => c = 250 ∧ Live c0 ch 0 s') s := by
  unfold mailFormats mailFromLoop
  refine runs_log h fun s1 h1 _ => ?_
  apply runs_bind
  have e : cstr (b!"MAIL FROM: <" ++ f.email ++ b!">\r\n") = b!"MAIL FROM:" ++ (b!" <" ++ cstr (f.email ++ b!">\r\n")) := by
    rw [List.append_assoc, cstr_prefix72 (by decide)]
    rfl
  refine runs_mono (command_live hS _ _ h1 (code := b!"250") (by rw [e]; exact accept_mail _) (by rw [e]; simp)) ?_
  rintro c s2 ⟨rfl, h2⟩
  rw [if_pos (by decide)]
  exact ⟨rfl, h2⟩

theorem recipients_live (l : List MessageAddress) (h : Live c0 ch 0 s) :
    Runs env (addMailRecipients 250 l) (fun c s' => c = 250 ∧ Live c0 ch 0 s') s := by
  induction l generalizing s with
  | nil => exact ⟨rfl, h⟩
  | cons a l ih =>
    unfold addMailRecipients
    refine runs_log h fun s1 h1 _ => ?_
    apply runs_bind
    have e : cstr (rcptTo a) = b!"RCPT TO:" ++ (b!" <" ++ cstr (a.email ++ b!">\r\n")) := by
      unfold rcptTo
      rw [List.append_assoc, cstr_prefix72 (by decide)]
      rfl
    refine runs_mono (command_live hS _ _ h1 (code := b!"250") (by rw [e]; exact accept_rcpt _) (by rw [e]; simp)) ?_
    rintro c s2 ⟨rfl, h2⟩
    rw [if_neg (by decide)]
    exact ih h2

theorem recipientsLoop_live (ls : List (Arr MessageAddress)) (hok : ∀ a ∈ ls, ArrayOk a) (h : Live c0 ch 0 s) :
    Runs env (recipientsLoop ls) (fun c s' => c = 0 ∧ Live c0 ch 0 s') s := by
  induction ls generalizing s with
  | nil => exact ⟨rfl, h⟩
  | cons a ls ih =>
    unfold recipientsLoop
    have hi := fun s h => ih (s := s) (fun a h => hok a (by simp [h])) h
    have ha := hok a (by simp)
    unfold ArrayOk at ha
    split
    · exact hi s h
    · cases hp : a.ptr with
      | none => simp [hp] at *
      | some l =>
        simp only [hp] at ha
        apply runs_bind
        unfold arrElems
        rw [hp]
        dsimp only
        rw [if_pos ha]
        show Runs env _ _ s
        apply runs_bind
        refine runs_mono (recipients_live hS _ h) ?_
        rintro c s1 ⟨rfl, h1⟩
        rw [if_neg (by decide)]
        exact hi s1 h1

theorem setMailRecipients_live (m : Message) (hm : MessageOk m) (h : Live c0 ch 0 s) :
    Runs env (setMailRecipients m) (fun c s' => c = 0 ∧ Live c0 ch 0 s') s := by
  unfold setMailRecipients
  apply runs_bind
  refine runs_mono (mailFrom_live hS h 0 m.from) ?_
  rintro c s1 ⟨rfl, h1⟩
  rw [if_neg (by decide)]
  exact recipientsLoop_live hS _ (by
    intro a ha
    simp only [List.mem_cons, List.not_mem_nil, or_false] at ha
    rcases ha with rfl | rfl | rfl
    · exact hm.to
    · exact hm.cc
    · exact hm.bcc) h1

theorem content_live (d : Bytes) (e : Int) (h : Live c0 ch n s) :
    Runs env (sendPtr .content d e) (fun c s' => c = 0 ∧ Live c0 ch n s') s := by
  refine runs_mono (sendPtr_live hS.works cleanup .content (by decide) d e h hS.speaks) ?_
  rintro c s' ⟨h1, h2, _⟩
  exact ⟨h1, h2⟩

theorem addMailHeader_live (f v : Bytes) (e : Int) (h : Live c0 ch n s) :
    Runs env (addMailHeader f v e) (fun c s' => c = 0 ∧ Live c0 ch n s') s := by
  unfold addMailHeader
  exact runs_log h fun s1 h1 _ => content_live hS _ _ h1

omit hS in
theorem arrElems_ok {α : Type} {a : Arr α} (ha : ArrayOk a) : ∃ l, ∀ s, arrElems a env s = (.ok l, s) := by
  unfold ArrayOk at ha
  unfold arrElems
  cases hp : a.ptr with
  | none =>
    simp only [hp] at ha
    refine ⟨[], fun s => ?_⟩
    dsimp only
    rw [if_pos ha]
    rfl
  | some l =>
    simp only [hp] at ha
    refine ⟨l.take a.count, fun s => ?_⟩
    dsimp only
    rw [if_pos ha]
    rfl

theorem addressHeader_live (f : Bytes) (a : Arr MessageAddress) (ha : ArrayOk a) (h : Live c0 ch n s) :
    Runs env (addressHeader f a) (fun _ s' => Live c0 ch n s') s := by
  unfold addressHeader
  split
  · obtain ⟨l, hl⟩ := arrElems_ok (env := env) ha
    apply runs_bind
    refine runs_iff.mpr ⟨_, _, hl s, ?_⟩
    apply runs_bind
    refine runs_mono (addMailHeader_live hS _ _ _ h) ?_
    rintro _ s1 ⟨_, h1⟩
    exact h1
  · exact h

theorem setMailHeaders_live (m : Message) (hm : MessageOk m) (h : Live c0 ch 0 s) :
    Runs env (setMailHeaders m) (fun c s' => c = 0 ∧ Live c0 ch 0 s') s := by
  unfold setMailHeaders
  refine runs_log h fun s1 h1 _ => ?_
  apply runs_bind
  refine runs_mono (command_live hS _ _ h1 (code := b!"354") (by decide) (by decide)) ?_
  rintro c s2 ⟨rfl, h2⟩
  rw [if_neg (by decide)]
  apply runs_bind
  refine runs_mono (addMailHeader_live hS _ _ _ h2) ?_
  rintro c s3 ⟨rfl, h3⟩
  rw [if_neg (by decide)]
  apply runs_bind
  refine runs_mono (addressHeader_live hS _ _ hm.to h3) ?_
  intro _ s4 h4
  apply runs_bind
  refine runs_mono (addressHeader_live hS _ _ hm.cc h4) ?_
  intro _ s5 h5
  refine runs_log h5 fun s6 h6 _ => ?_
  apply runs_bind
  refine runs_mono (content_live hS _ _ h6) ?_
  rintro c s7 ⟨rfl, h7⟩
  rw [if_neg (by decide)]
  refine runs_log h7 fun s8 h8 _ => ?_
  apply runs_bind
  refine runs_mono (content_live hS _ _ h8) ?_
  rintro c s9 ⟨rfl, h9⟩
  rw [if_neg (by decide)]
  exact ⟨rfl, h9⟩

omit hS in
theorem attachments_live (l : List Attachment) (h : Live c0 ch n s) :
    Runs env (attachmentsLoop l) (fun _ s' => Live c0 ch n s') s := by
  induction l generalizing s with
  | nil => exact h
  | cons a l ih =>
    unfold attachmentsLoop
    apply runs_bind
    unfold base64EncodedFile sysReadFile
    apply runs_ask
    intro r
    have h1 : Live c0 ch n (St.snoc s (.readFile a.filename r)) := h.quiet fun _ => rfl
    cases r with
    | none =>
      show Runs env _ _ _
      apply runs_bind
      refine runs_mono (ih h1) ?_
      intro _ s2 h2
      exact h2
    | some x =>
      show Runs env _ _ _
      apply runs_bind
      refine runs_mono (ih h1) ?_
      intro _ s2 h2
      exact h2

omit hS in
theorem fullBody_live (m : Message) (hm : MessageOk m) (h : Live c0 ch n s) :
    Runs env (fullBody m) (fun _ s' => Live c0 ch n s') s := by
  unfold fullBody
  obtain ⟨l, hl⟩ := arrElems_ok (env := env) hm.attachments
  apply runs_bind
  refine runs_iff.mpr ⟨_, _, hl s, ?_⟩
  split
  · unfold createAttachmentsText
    apply runs_bind
    apply runs_bind
    refine runs_mono (attachments_live l h) ?_
    intro _ s1 h1
    exact h1
  · exact h

theorem sendPieces_live (l : List Bytes) (h : Live c0 ch n s) :
    Runs env (sendPieces l) (fun c s' => c = 0 ∧ Live c0 ch n s') s := by
  induction l generalizing s with
  | nil => exact ⟨rfl, h⟩
  | cons p l ih =>
    unfold sendPieces
    apply runs_bind
    refine runs_mono (content_live hS _ _ h) ?_
    rintro c s1 ⟨rfl, h1⟩
    rw [if_neg (by decide)]
    exact ih h1

theorem sendBodyText_live (body : Bytes) (h : Live c0 ch n s) :
    Runs env (sendBodyText body) (fun c s' => c = 0 ∧ Live c0 ch n s') s := by
  unfold sendBodyText
  split
  · exact sendPieces_live hS _ h
  · apply runs_bind
    refine runs_mono (content_live hS _ _ h) ?_
    rintro c s1 ⟨rfl, h1⟩
    rw [if_neg (by decide)]
    exact ⟨rfl, h1⟩

theorem setMailBody_live (m : Message) (hm : MessageOk m) (h : Live c0 ch 0 s) :
    Runs env (setMailBody m) (fun c s' => c = 0 ∧ Live c0 ch 0 s') s := by
  unfold setMailBody
  refine runs_log h fun s1 h1 _ => ?_
  apply runs_bind
  refine runs_mono (fullBody_live m hm h1) ?_
  intro body s2 h2
  apply runs_bind
  refine runs_mono (sendBodyText_live hS body h2) ?_
  rintro c s3 ⟨rfl, h3⟩
  rw [if_neg (by decide)]
  refine runs_log h3 fun s4 h4 _ => ?_
  apply runs_bind
  refine runs_mono (command_live hS _ _ h4 (code := b!"250") (by decide) (by decide)) ?_
  rintro c s5 ⟨rfl, h5⟩
  rw [if_neg (by decide)]
  apply runs_get
  split
  · exact ⟨rfl, h5⟩
  · apply runs_bind
    unfold sendQuit sendQuitWith
    refine runs_log h5 fun s6 h6 _ => ?_
    refine runs_mono (sendPtr_live hS.works cleanup .quit (by decide) _ _ h6 hS.speaks) ?_
    rintro c s7 ⟨rfl, h7, _⟩
    rw [if_neg (by decide)]
    exact ⟨rfl, h7⟩

/-! ### Closing -/

omit hS in
theorem closeSession_works (s : St) : Runs env closeSession (fun _ s' => s'.client = closedClient s.client) s :=
  runs_iff.mpr ⟨_, _, closeSession_run s, rfl⟩

omit hS in
theorem cleanup_off (hw : Works env) (h : s.client.batch = false ∨ s.client.isConnected = false) :
    Runs env cleanup (fun _ s' => s'.client = closedClient s.client) s := by
  obtain ⟨d, hd⟩ : ∃ d, env.depth = d + 1 := ⟨env.depth - 1, by have := hw.depth; omega⟩
  unfold cleanup
  show Runs env (cleanupN env.depth) _ s
  rw [hd]
  unfold cleanupN
  apply runs_get
  apply runs_get
  rw [if_neg (by rcases h with h | h <;> simp [h])]
  exact closeSession_works s

theorem cleanup_live (h : Live c0 ch n s) : Runs env cleanup (fun _ _ => True) s := by
  by_cases hb : s.client.batch = false ∨ s.client.isConnected = false
  · exact runs_mono (cleanup_off hS.works hb) fun _ _ _ => trivial
  · obtain ⟨d, hd⟩ : ∃ d, env.depth = d + 1 := ⟨env.depth - 1, by have := hS.works.depth; omega⟩
    unfold cleanup
    show Runs env (cleanupN env.depth) _ s
    rw [hd]
    unfold cleanupN
    apply runs_get
    apply runs_get
    rw [if_pos (by simp at hb; simp [hb])]
    apply runs_bind
    unfold sendQuitWith
    refine runs_log h fun s1 h1 _ => ?_
    refine runs_mono (sendPtr_live hS.works _ .quit (by decide) _ _ h1 hS.speaks) ?_
    intro _ s2 _
    exact runs_mono (closeSession_works s2) fun _ _ _ => trivial

/-- A mail on an open session arrives; afterwards the session is open in batch mode, and closed otherwise. -/
theorem mail_live (m : Message) (hm : MessageOk m) (h : Live c0 ch 0 s) (hc : c0.isConnected = true) :
    Runs env (do let code ← setMailRecipients m; if code ≠ 0 then pure code else sendMailRest m)
      (fun c s' => c = 0 ∧ ((c0.batch = true ∧ Live c0 ch 0 s') ∨ ∃ l r, s'.client = closedClient { c0 with log := l, lastResponse := r })) s := by
  apply runs_bind
  refine runs_mono (setMailRecipients_live hS m hm h) ?_
  rintro c s1 ⟨rfl, h1⟩
  rw [if_neg (by decide)]
  unfold sendMailRest
  apply runs_bind
  refine runs_mono (setMailHeaders_live hS m hm h1) ?_
  rintro c s2 ⟨rfl, h2⟩
  rw [if_neg (by decide)]
  apply runs_bind
  refine runs_mono (setMailBody_live hS m hm h2) ?_
  rintro c s3 ⟨rfl, h3⟩
  rw [if_neg (by decide)]
  apply runs_get
  obtain ⟨l, r, e, ho⟩ := h3.client
  by_cases hb : s3.client.batch = true
  · rw [if_pos hb]
    exact ⟨rfl, .inl ⟨by rw [e] at hb; exact hb, h3⟩⟩
  · rw [if_neg hb]
    apply runs_bind
    refine runs_mono (cleanup_off hS.works (.inl (by simpa using hb))) ?_
    intro _ s4 h4
    exact ⟨rfl, .inr ⟨some l, r, by rw [h4, e]⟩⟩

/-! ### Opening -/

omit hS in
theorem runs_asked {α β : Type} {g : Env → Hist → α} {ev : α → Ev} {f : α → M β} {Q : β → St → Prop} {s : St} (r : α) (hr : g env s.hist = r)
    (h : Runs env (f r) Q (St.snoc s (ev r))) : Runs env (M.ask g ev >>= f) Q s := by
  subst hr
  exact h

omit hS in
theorem initialize_live (hw : Works env) (ha : Accepts env k T tls? C) (hn : s.client.serverName ≠ none) :
    Runs env initializeSession (fun c s' => c = 0 ∧ ∃ fd, Live { s.client with sock := fd } (.raw fd) 0 s' ∧
      (k ≠ .forced → Greets env T (.raw fd) s'.hist)) s := by
  obtain ⟨name, hname⟩ := Option.ne_none_iff_exists'.mp hn
  generalize hQ : (fun (c : Int) (s' : St) => c = 0 ∧ ∃ fd, Live { s.client with sock := fd } (.raw fd) 0 s' ∧
      (k ≠ .forced → Greets env T (.raw fd) s'.hist)) = Q
  unfold initializeSession
  apply runs_bind
  show Runs env _ _ { s with client := { s.client with log := some .fresh }, mem := s.mem ++ [.freshLog] }
  unfold initializePOSIX sysSocket
  obtain ⟨fd, hfd, hlt⟩ := hw.socket s.hist
  refine runs_asked (.val fd) hfd ?_
  dsimp only
  apply runs_bind
  have hL : Live { s.client with sock := fd } (.raw fd) 0
      ⟨{ s.client with log := some .fresh, sock := fd }, s.hist ++ [.socket (.val fd)], s.mem ++ [.freshLog]⟩ := by
    refine ⟨⟨.fresh, s.client.lastResponse, rfl, logOk_fresh⟩, ?_, ?_⟩
    · simp only [dialogue_append]; rfl
    · intro _ _
      simp only [dialogue_append]; rfl
  show Runs env _ _ ⟨{ s.client with log := some .fresh, sock := fd }, s.hist ++ [.socket (.val fd)], s.mem ++ [.freshLog]⟩
  have hname' : (⟨{ s.client with log := some .fresh, sock := fd }, s.hist ++ [.socket (.val fd)], s.mem ++ [.freshLog]⟩ : St).client.serverName = some name := hname
  generalize (⟨{ s.client with log := some .fresh, sock := fd }, s.hist ++ [.socket (.val fd)], s.mem ++ [.freshLog]⟩ : St) = s1 at hL hname'
  apply runs_get
  rw [hname']
  dsimp only
  unfold sysResolve
  obtain ⟨addr, hfound, hlen⟩ := hw.resolve s1.hist name
  refine runs_asked _ hfound ?_
  dsimp only
  rw [if_neg (by omega)]
  replace hL := hL.quiet (e := .resolve name (some addr)) fun _ => rfl
  generalize St.snoc s1 (.resolve name (some addr)) = s1 at hL
  apply runs_bind
  refine runs_iff.mpr ⟨_, _, (fcntl_exact hw s1).1, ?_⟩
  have hL2 := (hL.quiet (e := .fcntlGet s1.client.sock .ok) fun _ => rfl).quiet (e := .fcntlSet s1.client.sock true .ok) fun _ => rfl
  generalize St.snoc (St.snoc s1 (.fcntlGet s1.client.sock .ok)) (.fcntlSet s1.client.sock true .ok) = s2 at hL2
  rw [if_neg (by decide)]
  apply runs_get
  refine runs_log hL2 fun s3 h3 _ => ?_
  obtain ⟨l3, r3, e3, _⟩ := h3.client
  have hsock : s3.client.sock = fd := by rw [e3]
  have finish : ∀ s4 : St, Live { s.client with sock := fd } (.raw fd) 0 s4 → (k ≠ .forced → Greets env T (.raw fd) s4.hist) →
      Runs env setBlocking Q s4 := by
    intro s4 h4 hg
    rw [← hQ]
    refine runs_iff.mpr ⟨_, _, (fcntl_exact hw s4).2, rfl, fd, (h4.quiet fun _ => rfl).quiet (fun _ => rfl), fun hk => ?_⟩
    obtain ⟨p, rs, h1, h2, h3, h4⟩ := hg hk
    exact ⟨p, rs, h1, h2, h3, gives_snoc (gives_snoc h4 rfl) rfl⟩
  unfold connectPOSIX sysConnect
  apply runs_get
  apply runs_get
  rw [hsock]
  rcases hw.connect s3.hist fd ⟨sinAddr addr, s3.client.port % 65536⟩ with hc | hc
  · refine runs_asked _ hc ?_
    exact finish _ (h3.quiet fun _ => rfl) fun hk => (ha.greets hk s3.hist fd).1 _
  · refine runs_asked _ hc ?_
    dsimp only
    rw [if_pos rfl, if_neg (by omega)]
    have h4 := h3.quiet (e := .connect fd ⟨sinAddr addr, s3.client.port % 65536⟩ (.err 115)) fun _ => rfl
    generalize St.snoc s3 (.connect fd ⟨sinAddr addr, s3.client.port % 65536⟩ (.err 115)) = s4 at h4
    unfold sysSelect
    apply runs_get
    refine runs_asked _ (hw.select _ _ _) ?_
    dsimp only
    have h5 := h4.quiet (e := .select fd .ready) fun _ => rfl
    generalize St.snoc s4 (.select fd .ready) = s5 at h5
    unfold sysSockopt
    refine runs_asked _ (hw.sockopt _ _) ?_
    dsimp only
    rw [if_neg (by simp)]
    exact finish _ (h5.quiet fun _ => rfl) fun hk => (ha.greets hk s5.hist fd).2

omit hS in
theorem runs_logged {α : Type} {f : Unit → M α} {Q : α → St → Prop} {i p : Bytes} (h : Live c0 ch n s)
    (hq : ∀ s', Live c0 ch n s' → s'.hist = s.hist → Runs env (f ()) Q s') : Runs env (addLog i p >>= f) Q s := by
  apply runs_bind
  exact Proofs.wp_addLog h.hasLog fun _ _ hl => hq _ (h.of_eq rfl hl rfl) rfl

omit hS in
theorem greetingResult_live {p : Bytes} (h : Live c0 ch n s) (h220 : b!"220 " <+: p) (h0 : 0 ∉ p) :
    Runs env (greetingResult (some p)) (fun c s' => c = 220 ∧ Live c0 ch n s') s := by
  have hp : b!"220" <+: p.dropLast := by
    obtain ⟨r, rfl⟩ := h220
    cases r with
    | nil => exact ⟨[], rfl⟩
    | cons x r => exact ⟨b!" " ++ (x :: r).dropLast, by rw [List.dropLast_append_of_ne_nil (by simp)]; rfl⟩
  have h0' : 0 ∉ p.dropLast := fun h => h0 (List.dropLast_subset _ h)
  have ht : bufferText p = p.dropLast := cstr_eq_self h0'
  unfold greetingResult
  dsimp only
  refine runs_log h fun s1 h1 _ => ?_
  rw [ht, code_of rfl (by decide) hp, if_pos (by decide)]
  refine runs_log h1 fun s2 h2 _ => ?_
  exact ⟨rfl, h2⟩

omit hS in
theorem greeting_raw (h : Live c0 ch n s) (hT : T ≤ c0.timeout) (hk : c0.kind ≠ .forced) (hg : Greets env T (.raw c0.sock) s.hist) :
    Runs env checkServerGreetings (fun c s' => c = 220 ∧ Live c0 ch n s') s := by
  obtain ⟨p, rs, h1, h2, ⟨w, ⟨hw1, hw2⟩, rfl⟩, h4⟩ := hg
  obtain ⟨l, r, e, _⟩ := h.client
  unfold checkServerGreetings
  apply runs_get
  rw [if_neg (by rw [e]; simp [hk])]
  apply runs_get
  apply runs_get
  apply runs_bind
  have hsock : s.client.sock = c0.sock := by rw [e]
  refine runs_mono (waitLoop_given w hw2 s.client.timeout (by rw [e]; exact Nat.lt_of_lt_of_le hw1 hT) s (fun _ _ => by rw [hsock]) h4) ?_
  rintro _ s1 ⟨rfl, hl⟩
  exact greetingResult_live (h.listened hl) h1 h2

omit hS in
theorem greeting_tls {b : Bio} (h : Live c0 ch n s) (hT : T ≤ c0.timeout) (hk : c0.kind = .forced) (hb : c0.bio = some b)
    (hg : Greets env T (.tls b.id b.fd) s.hist) :
    Runs env checkServerGreetings (fun c s' => c = 220 ∧ Live c0 ch n s') s := by
  obtain ⟨p, rs, h1, h2, ⟨w, ⟨hw1, hw2⟩, rfl⟩, h4⟩ := hg
  obtain ⟨l, r, e, _⟩ := h.client
  unfold checkServerGreetings
  apply runs_get
  rw [if_pos (by rw [e]; simp [hk])]
  apply runs_get
  apply runs_bind
  have hbio : s.client.bio = some b := by rw [e]; exact hb
  refine runs_mono (waitLoop_given (ch := .tls b.id b.fd) w hw2 s.client.timeout (by rw [e]; exact Nat.lt_of_lt_of_le hw1 hT) s (fun s' h => by
    unfold bioRead
    rw [bind_run, gets_run, h, hbio]) h4) ?_
  rintro _ s1 ⟨rfl, hl⟩
  exact greetingResult_live (h.listened hl) h1 h2

omit hS in
/-- The reply to EHLO, as it is kept, is complete. -/
theorem complete_reply {ls : List Bytes} (h : ReplyLines b!"250" ls) :
    containsAllOptions (wire ls) = true ∧ containsAllOptions (wire ls).dropLast = true := by
  obtain ⟨init, last, rfl, h1, h2⟩ := h.shape
  have hcr : ∀ m ∈ init ++ [last], ∀ c ∈ m, c ≠ 13 := fun m hm c hc => (h.plain m hm c hc).2.2
  exact ⟨(complete_wire (fun m hm => hcr m (by simp [hm])) (hcr last (by simp))).mpr h2,
    (complete_dropLast (fun m hm => hcr m (by simp [hm])) (hcr last (by simp))).mpr h2⟩

/-- The text of a reply as the client keeps it. -/
def keptText (ls : List Bytes) : Chan → Bytes
  | .raw _ => wire ls
  | .tls _ _ => (wire ls).dropLast

omit hS in
/-- The identification, once it is known on which channel it happens. -/
theorem identify_live (hw : Works env) (err tc : Int) (h : Live c0 ch 0 s)
    (hfb : ∀ s, Live c0 ch 0 s → Runs env (sendFb ehloCmd err tc) (Welcomed k tls? C c0 ch 0 (cstr ehloCmd) b!"250") s) :
    Runs env (identify err tc) (fun c s' => c = 250 ∧ ∃ ls, ReplyLines b!"250" ls ∧ Introduces k tls? C ls ch ∧
      Live { c0 with authOptions := extractAuthOptions (some (keptText ls ch)) } ch 0 s' ∧ s'.client.lastResponse = some (keptText ls ch)) s := by
  unfold identify
  refine runs_log h fun s1 h1 _ => ?_
  apply runs_bind
  refine runs_mono (hfb s1 h1) ?_
  rintro c s2 ⟨rfl, h2, ls, hls, hin, hr⟩
  have hr' : s2.client.lastResponse = some (keptText ls ch) := by cases ch <;> exact hr
  rw [if_neg (by decide)]
  unfold lastResponseText
  apply runs_bind
  apply runs_get
  rw [hr']
  show Runs env _ _ s2
  obtain ⟨f, hf⟩ : ∃ f, env.fuel = f + 1 := ⟨env.fuel - 1, by have := hw.fuel; omega⟩
  apply runs_bind
  refine runs_iff.mpr ⟨env.fuel, s2, rfl, ?_⟩
  rw [hf]
  unfold ehloLoop
  have hcomp : containsAllOptions (keptText ls ch) = true := by
    cases ch
    · exact (complete_reply hls).1
    · exact (complete_reply hls).2
  rw [if_pos hcomp]
  apply runs_bind
  refine runs_iff.mpr ⟨_, _, rfl, ?_⟩
  dsimp only
  unfold setAuthOptions
  apply runs_bind
  refine runs_iff.mpr ⟨(), { s2 with client := { s2.client with authOptions := extractAuthOptions (some (keptText ls ch)) }, mem := s2.mem ++ [.options (cstr (keptText ls ch))] }, rfl, ?_⟩
  refine ⟨rfl, ls, hls, hin rfl rfl, ?_, hr'⟩
  obtain ⟨l, r, e, ho⟩ := h2.client
  exact ⟨⟨l, r, by rw [e], ho⟩, h2.lines, h2.clear⟩

omit hS in
theorem identify_raw_live (hw : Works env) (ha : Accepts env k T tls? C) (err tc : Int) (h : Live c0 ch 0 s) (hT : T ≤ c0.timeout) (hch : ch = .raw c0.sock)
    (hk : c0.kind = .smtp ∨ c0.bio = none) :
    Runs env (identify err tc) (fun c s' => c = 250 ∧ ∃ ls, ReplyLines b!"250" ls ∧ Introduces k tls? C ls ch ∧
      Live { c0 with authOptions := extractAuthOptions (some (keptText ls ch)) } ch 0 s' ∧ s'.client.lastResponse = some (keptText ls ch)) s := by
  refine identify_live hw err tc h fun s h => ?_
  obtain ⟨l, r, e, ho⟩ := h.client
  unfold sendFb
  apply runs_get
  apply runs_get
  rw [if_pos (by rw [e]; rcases hk with hk | hk <;> simp [hk])]
  exact sendRawFb_live hw ha _ _ h hT hch (by decide)

omit hS in
theorem identify_tls_live (hw : Works env) (ha : Accepts env k T tls? C) (err tc : Int) {b : Bio} (h : Live c0 ch 0 s) (hT : T ≤ c0.timeout)
    (hb : c0.bio = some b) (hch : ch = .tls b.id b.fd) (hk : c0.kind ≠ .smtp) :
    Runs env (identify err tc) (fun c s' => c = 250 ∧ ∃ ls, ReplyLines b!"250" ls ∧ Introduces k tls? C ls ch ∧
      Live { c0 with authOptions := extractAuthOptions (some (keptText ls ch)) } ch 0 s' ∧ s'.client.lastResponse = some (keptText ls ch)) s := by
  refine identify_live hw err tc h fun s h => ?_
  obtain ⟨l, r, e, ho⟩ := h.client
  unfold sendFb
  apply runs_get
  apply runs_get
  rw [if_neg (by rw [e]; simp [hk, hb])]
  exact sendTlsFb_live hw ha _ _ h hT hb hch (by decide)

omit hS in
theorem startTls_live (hw : Works env) (ha : Accepts env k T tls? C) (h : Live c0 ch n s) {name : Bytes} (hname : c0.serverName = some name)
    (hlen : name.length ≤ 1000) (hport : decimals c0.port ≤ 10) :
    Runs env startTLSNegotiation (fun c s' => c = 0 ∧ ∃ b : Bio, Live { c0 with ctx := true, bio := some b } (.tls b.id b.fd) n s' ∧
      (k = .forced → Greets env T (.tls b.id b.fd) s'.hist)) s := by
  unfold startTLSNegotiation
  refine runs_log h fun s1 h1 _ => ?_
  unfold sysTls
  refine runs_asked _ rfl ?_
  rw [if_neg (by have := hw.tls s1.hist .ctxNew (by intro id e; cases e); omega)]
  have h2 := h1.quiet (e := .tls .ctxNew (env.tls s1.hist .ctxNew)) fun _ => rfl
  generalize St.snoc s1 (.tls .ctxNew (env.tls s1.hist .ctxNew)) = s2 at h2
  apply runs_bind
  have h3 : Live { c0 with ctx := true } ch n { s2 with client := { s2.client with ctx := true } } := by
    obtain ⟨l, r, e, ho⟩ := h2.client
    exact ⟨⟨l, r, by rw [e], ho⟩, h2.lines, h2.clear⟩
  show Runs env _ _ { s2 with client := { s2.client with ctx := true } }
  generalize ({ s2 with client := { s2.client with ctx := true } } : St) = s3 at h3
  apply runs_bind
  show Runs env _ _ s3
  refine runs_asked _ rfl ?_
  rw [if_neg (by have := hw.tls s3.hist .bioNew (by intro id e; cases e); omega)]
  have h4 := h3.quiet (e := .tls .bioNew (env.tls s3.hist .bioNew)) fun _ => rfl
  generalize s3.hist.length = id
  generalize St.snoc s3 (.tls .bioNew (env.tls s3.hist .bioNew)) = s4 at h4
  apply runs_get
  apply runs_bind
  show Runs env _ _ { s4 with client := { s4.client with bio := some { id := id, fd := s4.client.sock } } }
  have h5 : Live { c0 with ctx := true, bio := some { id := id, fd := s4.client.sock } } (.tls id s4.client.sock) n
      { s4 with client := { s4.client with bio := some { id := id, fd := s4.client.sock } } } := by
    obtain ⟨l, r, e, ho⟩ := h4.client
    refine ⟨⟨l, r, ?_, ho⟩, h4.lines, fun fd e => nomatch e⟩
    rw [e]
  generalize hb : (⟨id, s4.client.sock⟩ : Bio) = b at h5
  have hid : id = b.id := by rw [← hb]
  have hfd : s4.client.sock = b.fd := by rw [← hb]
  rw [hfd] at h5
  rw [hid] at h5 ⊢
  generalize ({ s4 with client := { s4.client with bio := some b } } : St) = s5 at h5
  obtain ⟨l5, r5, e5, _⟩ := h5.client
  apply runs_get
  have hn5 : s5.client.serverName = some name := by rw [e5]; exact hname
  have hp5 : s5.client.port = c0.port := by rw [e5]
  rw [hn5]
  dsimp only
  apply runs_get
  rw [if_neg (by
    rw [hp5]
    unfold decimals at hport
    simp only [natDec, List.length_map]
    omega)]
  refine runs_asked _ rfl ?_
  rw [if_neg (by have := hw.tls s5.hist .verifyPaths (by intro id e; cases e); omega)]
  have h6 := h5.quiet (e := .tls .verifyPaths (env.tls s5.hist .verifyPaths)) fun _ => rfl
  generalize St.snoc s5 (.tls .verifyPaths (env.tls s5.hist .verifyPaths)) = s6 at h6
  refine runs_asked _ rfl ?_
  rw [if_neg (by have := hw.tls s6.hist (.connect b.id) (by intro id e; cases e); omega)]
  have h7 := h6.quiet (e := .tls (.connect b.id) (env.tls s6.hist (.connect b.id))) fun _ => rfl
  generalize St.snoc s6 (.tls (.connect b.id) (env.tls s6.hist (.connect b.id))) = s7 at h7
  refine runs_log h7 fun s8 h8 _ => ?_
  refine runs_asked _ rfl ?_
  rw [if_neg (by have := hw.tls s8.hist (.handshake b.id) (by intro id e; cases e); omega)]
  have h9 : Live { c0 with ctx := true, bio := some b } (.tls b.id b.fd) n (St.snoc s8 (.tls (.handshake b.id) (env.tls s8.hist (.handshake b.id)))) := by
    refine ⟨h8.client, ?_, fun fd e => nomatch e⟩
    rw [dialogue_snoc]
    exact h8.lines
  generalize St.snoc s8 (.tls (.handshake b.id) (env.tls s8.hist (.handshake b.id))) = s9 at h9
  refine runs_log h9 fun s10 h10 _ => ?_
  refine runs_asked _ rfl ?_
  rw [if_neg (by have := hw.tls s10.hist (.peerCert b.id) (by intro id e; cases e); omega)]
  have h11 := h10.quiet (e := .tls (.peerCert b.id) (env.tls s10.hist (.peerCert b.id))) fun _ => rfl
  generalize St.snoc s10 (.tls (.peerCert b.id) (env.tls s10.hist (.peerCert b.id))) = s11 at h11
  refine runs_asked _ (hw.certificate s11.hist b.id) ?_
  have h12 := h11.quiet (e := .tls (.verifyResult b.id) 0) fun _ => rfl
  have hg : k = .forced → Greets env T (.tls b.id b.fd) (St.snoc s11 (.tls (.verifyResult b.id) 0)).hist := fun hk => ha.greetsTls hk s11.hist b.id b.fd
  generalize St.snoc s11 (.tls (.verifyResult b.id) 0) = s12 at h12 hg
  apply runs_get
  rw [if_neg (by simp), if_neg (by simp)]
  refine runs_logged h12 fun s13 h13 hh => ?_
  exact ⟨rfl, b, h13, fun hk => by rw [hh]; exact hg hk⟩

/-! ### Logging in -/

/-- The options of the server allow the method of the user. -/
def Usable72 (o : AuthOptions) (m : AuthMethod) : Prop :=
  (o.plain = true ∧ (m = .implicit ∨ m = .plain)) ∨ (o.login = true ∧ (m = .implicit ∨ m = .login)) ∨
    (o.xoauth2 = true ∧ (m = .implicit ∨ m = .xoauth2))

omit hS in
theorem usable_of_names {l : Bytes} {m : AuthMethod} {o : AuthOptions} (h : Names l m) (ho : MechanismsOf l o) : Usable72 o m := by
  obtain ⟨h1, h2, h3, _⟩ := ho
  rcases h with ⟨h, hm⟩ | ⟨h, hm⟩ | ⟨h, hm⟩
  · exact .inl ⟨h1.mpr h, hm⟩
  · exact .inr (.inl ⟨h2.mpr h, hm⟩)
  · exact .inr (.inr ⟨h3.mpr h, hm⟩)

omit hS in
theorem offered_raw {ls : List Bytes} {m : AuthMethod} (h : ReplyLines b!"250" ls) (ho : OffersLogin false ls m) :
    ∃ o, extractAuthOptions (some (wire ls)) = some o ∧ Usable72 o m := by
  obtain ⟨pre, l, post, e, h1, h2, h3, _⟩ := ho
  have hz := (reply_wire h).1
  have hlines : lines (wire ls) = ls ++ [[]] := by
    have := lines_wire ls (fun l hl c hc => (h.plain l hl c hc).2.2) []
    rw [List.append_nil] at this
    rw [this]; rfl
  obtain ⟨o, h4, h5⟩ := C08_mechanisms_of_first_auth_line (wire ls) pre (post ++ [[]]) l
    (by rw [cstr_eq_self hz, hlines, e]; simp; omega) (by rw [cstr_eq_self hz, hlines, e]; simp) h2 h1
  exact ⟨o, h4, usable_of_names h3 h5⟩

omit hS in
theorem offered_tls {ls : List Bytes} {m : AuthMethod} (h : ReplyLines b!"250" ls) (ho : OffersLogin true ls m) :
    ∃ o, extractAuthOptions (some (wire ls).dropLast) = some o ∧ Usable72 o m := by
  obtain ⟨pre, l, post, e, h1, h2, h3, hpost⟩ := ho
  rcases List.eq_nil_or_concat post with hp | ⟨mid, last, hp⟩
  · exact absurd hp (hpost rfl)
  rw [List.concat_eq_append] at hp
  subst hp
  have hcr : ∀ m ∈ ls, ∀ c ∈ m, c ≠ 13 := fun m hm c hc => (h.plain m hm c hc).2.2
  have e' : ls = (pre ++ l :: mid) ++ [last] := by rw [e]; simp
  have hz : 0 ∉ (wire ls).dropLast := fun h' => (reply_wire h).1 (List.dropLast_subset _ h')
  have hlines : lines (wire ls).dropLast = (pre ++ l :: mid) ++ [last ++ [13]] := by
    rw [e', wire_dropLast, lines_wire _ (fun m hm => hcr m (by rw [e']; exact List.mem_append_left _ hm)), lines_cr last (hcr last (by rw [e']; simp))]
  obtain ⟨o, h4, h5⟩ := C08_mechanisms_of_first_auth_line (wire ls).dropLast pre (mid ++ [last ++ [13]]) l
    (by rw [cstr_eq_self hz, hlines]; simp; omega) (by rw [cstr_eq_self hz, hlines]; simp) h2 h1
  exact ⟨o, h4, usable_of_names h3 h5⟩

theorem authPlain_live (c : Credential) (h : Live c0 ch 0 s) : Runs env (authPlainM c) (fun r s' => r = 235 ∧ Live c0 ch 0 s') s := by
  unfold authPlainM
  refine runs_log h fun s1 h1 _ => ?_
  have e : cstr (authPlain c) = b!"AUTH " ++ (b!"PLAIN " ++ cstr (Base64.encode ([0] ++ c.username ++ [0] ++ c.password) ++ b!"\r\n")) := by
    unfold authPlain
    rw [List.append_assoc, cstr_prefix72 (by decide)]
    rfl
  refine runs_mono (command_live hS _ _ h1 (code := b!"235") (by rw [e]; exact accept_auth _ (by rintro ⟨r, e⟩; simp at e)) (by rw [e]; simp)) ?_
  rintro _ s2 ⟨rfl, h2⟩
  exact ⟨by decide, h2⟩

theorem authXOAuth2_live (c : Credential) (h : Live c0 ch 0 s) : Runs env (authXOAuth2M c) (fun r s' => r = 235 ∧ Live c0 ch 0 s') s := by
  unfold authXOAuth2M
  refine runs_log h fun s1 h1 _ => ?_
  have e : cstr (authXOAuth2 c) = b!"AUTH " ++ (b!"XOAUTH2 " ++ cstr (Base64.encode (b!"user=" ++ c.username ++ [1] ++ b!"auth=Bearer " ++ c.password ++ [1, 1]) ++ b!"\r\n")) := by
    unfold authXOAuth2
    rw [List.append_assoc, cstr_prefix72 (by decide)]
    rfl
  refine runs_mono (command_live hS _ _ h1 (code := b!"235") (by rw [e]; exact accept_auth _ (by rintro ⟨r, e⟩; simp at e)) (by rw [e]; simp)) ?_
  rintro _ s2 ⟨rfl, h2⟩
  exact ⟨by decide, h2⟩

theorem authLogin_live (c : Credential) (h : Live c0 ch 0 s) : Runs env (authLoginM c) (fun r s' => r = 235 ∧ Live c0 ch 0 s') s := by
  unfold authLoginM
  refine runs_log h fun s1 h1 _ => ?_
  apply runs_bind
  refine runs_mono (sendPtrFb_live hS.works hS.accepts _ _ h1 hS.time hS.speaks (code := b!"334") (by decide)) ?_
  rintro _ s2 ⟨rfl, h2, _⟩
  rw [if_neg (by decide)]
  have h2' : Live c0 ch 2 s2 := h2
  apply runs_bind
  refine runs_mono (sendPtrFb_live hS.works hS.accepts _ _ h2' hS.time hS.speaks (code := b!"334") (by simp [acceptance])) ?_
  rintro _ s3 ⟨rfl, h3, _⟩
  rw [if_neg (by decide)]
  have h3' : Live c0 ch 1 s3 := h3
  refine runs_mono (sendPtrFb_live hS.works hS.accepts _ _ h3' hS.time hS.speaks (code := b!"235") (by simp [acceptance])) ?_
  rintro _ s4 ⟨rfl, h4, _⟩
  exact ⟨by decide, h4⟩

theorem authenticate_live (h : Live c0 ch 0 s) (hc : ∀ c, c0.credential = some c → ∃ o, c0.authOptions = some o ∧ Usable72 o c.method) :
    Runs env authenticateIfNeeded (fun r s' => r = 0 ∧ Live c0 ch 0 s') s := by
  obtain ⟨l, r, e, ho⟩ := h.client
  unfold authenticateIfNeeded
  apply runs_get
  cases hcr : c0.credential with
  | none =>
    rw [if_neg (by rw [e]; simp [hcr])]
    exact ⟨rfl, h⟩
  | some c =>
    rw [if_pos (by rw [e]; simp [hcr])]
    obtain ⟨o, hopt, hu⟩ := hc c hcr
    apply runs_bind
    have key : Runs env authenticateClient (fun r s' => r = 235 ∧ Live c0 ch 0 s') s := by
      unfold authenticateClient
      apply runs_get
      have hcr' : s.client.credential = some c := by rw [e]; exact hcr
      have hopt' : s.client.authOptions = some o := by rw [e]; exact hopt
      rw [hcr']
      dsimp only
      apply runs_get
      rw [hopt']
      dsimp only
      split
      · exact authPlain_live hS c h
      · split
        · exact authLogin_live hS c h
        · split
          · exact authXOAuth2_live hS c h
          · exfalso
            rcases hu with ⟨h1, h2⟩ | ⟨h1, h2⟩ | ⟨h1, h2⟩ <;> rcases h2 with h2 | h2 <;> simp_all
    refine runs_mono key ?_
    rintro _ s' ⟨rfl, h'⟩
    rw [if_neg (by decide)]
    exact ⟨rfl, h'⟩

/-! ### From call to call -/

/-- The state of the object between two calls. -/
structure Between72 (k : Kind) (T : Nat) (tls? : Bool) (C : Credential → Prop) (s : St) : Prop where
  kind : s.client.kind = k
  time : T ≤ s.client.timeout
  name : ∃ nm, s.client.serverName = some nm ∧ nm.length ≤ 1000
  port : decimals s.client.port ≤ 10
  cred : ∀ c, s.client.credential = some c → C c
  keep : k ≠ .smtp → s.client.ptrRaw = true → k = .opportunistic ∧ tls? = false
  conn : (s.client.isConnected = false ∧ (k ≠ .smtp → s.client.bio = none)) ∨
    (s.client.isConnected = true ∧ ∃ ch, Speaks72 s.client ch ∧ Live s.client ch 0 s)

omit hS in
theorem occurs_of_findSub {p s : Bytes} {i : Nat} (h : findSub p s = some i) : Occurs p s := by
  induction s generalizing i with
  | nil =>
    unfold findSub at h
    split at h
    · rename_i hp
      exact ⟨[], [], by simp at hp; simp [hp]⟩
    · cases h
  | cons c s ih =>
    unfold findSub at h
    split at h
    · rename_i hp
      obtain ⟨r, hr⟩ := List.isPrefixOf_iff_prefix.mp hp
      exact ⟨[], r, by rw [← hr]; rfl⟩
    · cases hf : findSub p s with
      | none => rw [hf] at h; cases h
      | some j =>
        obtain ⟨a, b, e⟩ := ih hf
        exact ⟨c :: a, b, by rw [e]; rfl⟩

omit hS in
theorem supported_text {ls : List Bytes} (h : ReplyLines b!"250" ls) (hascii : ∀ l ∈ ls, ∀ c ∈ l, c < 128)
    (hocc : Occurs b!"250-STARTTLS" (wire ls) ↔ tls? = true) : isStartTLSSupported (some (wire ls)) = .ok tls? := by
  have h128 : ∀ c ∈ wire ls, c < 128 := by
    intro c hc
    obtain ⟨x, hx, hcx⟩ := List.mem_flatten.mp hc
    obtain ⟨l, hl, rfl⟩ := List.mem_map.mp hx
    rcases List.mem_append.mp hcx with h | h
    · exact hascii l hl c h
    · simp only [List.mem_cons, List.not_mem_nil, or_false] at h
      rcases h with rfl | rfl <;> decide
  obtain ⟨r, hr⟩ := (reply_wire h).2.1
  have hlen : (wire ls).length ≠ 0 := by rw [← hr]; simp
  obtain ⟨t, ht, _⟩ := C04_trim_ascii (wire ls) h128
  have htn : t ≠ [] := by
    rintro rfl
    have := (C04_trim_empty_iff (wire ls)).mp ht 50 (by rw [← hr]; simp)
    exact absurd this (by decide)
  unfold isStartTLSSupported
  dsimp only
  rw [if_neg hlen, ht]
  dsimp only
  rw [if_neg (by simpa using htn)]
  congr 1
  cases tls? with
  | true => exact findSub_occurs (hocc.mpr rfl)
  | false =>
    cases hf : findSub b!"250-STARTTLS" (wire ls) with
    | none => rfl
    | some i =>
      exfalso
      have := hocc.mp (occurs_of_findSub hf)
      cases this

omit hS in
theorem Live.modify (h : Live c0 ch n s) (f : Client → Client) (hf : ∀ c l r, f { c with log := l, lastResponse := r } = { f c with log := l, lastResponse := r }) :
    Live (f c0) ch n { s with client := f s.client } := by
  obtain ⟨l, r, e, ho⟩ := h.client
  exact ⟨⟨l, r, by rw [e, hf], ho⟩, h.lines, h.clear⟩

/-- The session is open. `c1` is the object up to log and last response; what the user has set is still there. -/
def Opened72 (k : Kind) (T : Nat) (tls? : Bool) (C : Credential → Prop) (c : Client) (s' : St) : Prop :=
  ∃ ch c1, Live c1 ch 0 s' ∧ Speaks72 c1 ch ∧ c1.kind = c.kind ∧ c1.timeout = c.timeout ∧ c1.serverName = c.serverName ∧ c1.port = c.port ∧
    c1.credential = c.credential ∧ (k ≠ .smtp → c1.ptrRaw = true → k = .opportunistic ∧ tls? = false)

omit hS in
theorem secure_live (hw : Works env) (ha : Accepts env k T tls? C) (hk : c0.kind = k) (hks : k ≠ .smtp) (hT : T ≤ c0.timeout) {b : Bio}
    (hb : c0.bio = some b) (hp : c0.ptrRaw = false) (hcred : ∀ c, c0.credential = some c → C c) (h : Live c0 (.tls b.id b.fd) 0 s) :
    Runs env (do let code ← getServerSecureIdentification; if code ≠ 250 then pure code else authenticateIfNeeded)
      (fun c s' => c = 0 ∧ Opened72 k T tls? C c0 s') s := by
  apply runs_bind
  unfold getServerSecureIdentification
  refine runs_log h fun s1 h1 _ => ?_
  refine runs_mono (identify_tls_live hw ha _ _ h1 hT hb rfl (by rw [hk]; exact hks)) ?_
  rintro _ s2 ⟨rfl, ls, hls, hin, h2, _⟩
  rw [if_neg (by decide)]
  have hSp : Speaks72 { c0 with authOptions := extractAuthOptions (some (keptText ls (.tls b.id b.fd))) } (.tls b.id b.fd) :=
    .inr ⟨b, hb, rfl, by rw [hk]; exact hks, hp⟩
  refine runs_mono (authenticate_live (c0 := { c0 with authOptions := extractAuthOptions (some (keptText ls (.tls b.id b.fd))) }) ⟨hw, ha, hT, hSp⟩ h2 fun c hc => offered_tls hls (hin c (hcred c hc))) ?_
  rintro _ s3 ⟨rfl, h3⟩
  exact ⟨rfl, _, _, h3, hSp, rfl, rfl, rfl, rfl, rfl, fun _ h => by rw [hp] at h; cases h⟩

omit hS in
theorem establish_live (hw : Works env) (ha : Accepts env k T tls? C) (hk : s.client.kind = k) (hT : T ≤ s.client.timeout)
    (hn : ∃ nm, s.client.serverName = some nm ∧ nm.length ≤ 1000) (hport : decimals s.client.port ≤ 10)
    (hcred : ∀ c, s.client.credential = some c → C c) (hkeep : k ≠ .smtp → s.client.ptrRaw = true → k = .opportunistic ∧ tls? = false)
    (hbio : k ≠ .smtp → s.client.bio = none) :
    Runs env establish (fun c s' => c = 0 ∧ Opened72 k T tls? C s.client s') s := by
  obtain ⟨name, hname, hlen⟩ := hn
  generalize hcc : s.client = c at *
  unfold establish
  apply runs_bind
  refine runs_mono (initialize_live hw ha (by rw [hcc, hname]; simp)) ?_
  rintro _ s1 ⟨rfl, fd, h1, hg⟩
  rw [if_neg (by decide)]
  rw [hcc] at h1
  obtain ⟨l1, r1, e1, _⟩ := h1.client
  have hk1 : s1.client.kind = k := by rw [e1]; exact hk
  apply runs_get
  rw [hk1]
  cases k with
  | smtp =>
    dsimp only
    unfold establishGreeted
    apply runs_bind
    refine runs_mono (greeting_raw h1 hT (by rw [hk]; decide) (hg (by decide))) ?_
    rintro _ s2 ⟨rfl, h2⟩
    rw [if_neg (by decide)]
    apply runs_bind
    refine runs_mono (identify_raw_live hw ha _ _ h2 hT rfl (.inl hk)) ?_
    rintro _ s3 ⟨rfl, ls, hls, hin, h3, _⟩
    rw [if_neg (by decide)]
    have hSp : Speaks72 { c with sock := fd, authOptions := extractAuthOptions (some (keptText ls (.raw fd))) } (.raw fd) := .inl ⟨rfl, .inl hk⟩
    refine runs_mono (authenticate_live (c0 := { c with sock := fd, authOptions := extractAuthOptions (some (keptText ls (.raw fd))) }) ⟨hw, ha, hT, hSp⟩ h3 fun c hc => offered_raw hls (hin.2.2 rfl c (hcred c hc))) ?_
    rintro _ s4 ⟨rfl, h4⟩
    exact ⟨rfl, _, _, h4, hSp, rfl, rfl, rfl, rfl, rfl, fun h => absurd rfl h⟩
  | opportunistic =>
    dsimp only
    unfold establishGreeted
    apply runs_bind
    refine runs_mono (greeting_raw h1 hT (by rw [hk]; decide) (hg (by decide))) ?_
    rintro _ s2 ⟨rfl, h2⟩
    rw [if_neg (by decide)]
    apply runs_bind
    refine runs_mono (identify_raw_live hw ha _ _ h2 hT rfl (.inr (hbio (by decide)))) ?_
    rintro _ s3 ⟨rfl, ls, hls, hin, h3, hr3⟩
    rw [if_neg (by decide)]
    unfold establishOpportunistic
    apply runs_get
    rw [hr3]
    have hsup : isStartTLSSupported (some (keptText ls (.raw fd))) = .ok tls? := supported_text hls hin.1 hin.2.1
    rw [hsup]
    cases tls? with
    | true =>
      dsimp only
      refine runs_log h3 fun s4 h4 _ => ?_
      apply runs_bind
      unfold upgradeToSecureConnection
      refine runs_log h4 fun s5 h5 _ => ?_
      refine runs_mono (sendRawFb_live hw ha _ _ h5 hT rfl (code := b!"220") (by decide)) ?_
      rintro _ s6 ⟨rfl, h6, _⟩
      rw [if_neg (by decide)]
      apply runs_bind
      refine runs_mono (startTls_live hw ha h6 hname hlen hport) ?_
      rintro _ s7 ⟨rfl, b, h7, _⟩
      rw [if_neg (by decide)]
      have hp : c.ptrRaw = false := by
        cases hp : c.ptrRaw with
        | false => rfl
        | true => exact absurd (hkeep (by decide) hp).2 (by decide)
      exact secure_live hw ha (c0 := { c with sock := fd, authOptions := extractAuthOptions (some (keptText ls (.raw fd))), ctx := true, bio := some b })
        hk (by decide) hT rfl hp hcred h7
    | false =>
      dsimp only
      refine runs_log h3 fun s4 h4 _ => ?_
      unfold setKeepUsingBase
      apply runs_bind
      refine runs_iff.mpr ⟨(), { s4 with client := { s4.client with keep := true, ptrRaw := true } }, rfl, ?_⟩
      exact ⟨rfl, .raw fd, _, h4.modify (fun c => { c with keep := true, ptrRaw := true }) (fun _ _ _ => rfl), .inl ⟨rfl, .inr rfl⟩, rfl, rfl, rfl, rfl, rfl,
        fun _ _ => ⟨rfl, rfl⟩⟩
  | forced =>
    dsimp only
    unfold establishForced
    apply runs_bind
    refine runs_mono (startTls_live hw ha h1 hname hlen hport) ?_
    rintro _ s2 ⟨rfl, b, h2, hg2⟩
    rw [if_neg (by decide)]
    apply runs_bind
    refine runs_mono (greeting_tls (c0 := { c with sock := fd, ctx := true, bio := some b }) h2 hT hk rfl (hg2 rfl)) ?_
    rintro _ s3 ⟨rfl, h3⟩
    rw [if_neg (by decide)]
    have hp : c.ptrRaw = false := by
      cases hp : c.ptrRaw with
      | false => rfl
      | true => exact absurd (hkeep (by decide) hp).1 (by decide)
    exact secure_live hw ha (c0 := { c with sock := fd, ctx := true, bio := some b }) hk (by decide) hT rfl hp hcred h3

omit hS in
/-- What follows once the session is open. -/
theorem connected_live (hw : Works env) (ha : Accepts env k T tls? C) (m : Message) (hm : MessageOk m) (hk : c0.kind = k) (hT : T ≤ c0.timeout)
    (hn : ∃ nm, c0.serverName = some nm ∧ nm.length ≤ 1000) (hport : decimals c0.port ≤ 10)
    (hcred : ∀ c, c0.credential = some c → C c) (hkeep : k ≠ .smtp → c0.ptrRaw = true → k = .opportunistic ∧ tls? = false)
    (hs : Speaks72 c0 ch) (h : Live c0 ch 0 s) :
    Runs env (sendMailConnected m) (fun c s' => c = 0 ∧ Between72 k T tls? C s') s := by
  unfold sendMailConnected
  apply runs_bind
  refine runs_iff.mpr ⟨(), { s with client := { s.client with isConnected := true } }, rfl, ?_⟩
  have h1 := h.modify (fun c => { c with isConnected := true }) fun _ _ _ => rfl
  have hs1 : Speaks72 { c0 with isConnected := true } ch := hs
  refine runs_mono (mail_live (c0 := { c0 with isConnected := true }) ⟨hw, ha, hT, hs1⟩ m hm h1 rfl) ?_
  rintro _ s2 ⟨rfl, ⟨_, h2⟩ | ⟨l, r, e⟩⟩
  · refine ⟨rfl, ?_⟩
    obtain ⟨l, r, e, ho⟩ := h2.client
    refine ⟨by rw [e]; exact hk, by rw [e]; exact hT, by rw [e]; exact hn, by rw [e]; exact hport, by rw [e]; exact hcred, by rw [e]; exact hkeep,
      .inr ⟨by rw [e], ch, by rw [e]; exact hs1, ⟨⟨l, r, by rw [e], ho⟩, h2.lines, h2.clear⟩⟩⟩
  · refine ⟨rfl, ?_⟩
    unfold closedClient at e
    split at e
    · rename_i hk'
      exact ⟨by rw [e]; exact hk, by rw [e]; exact hT, by rw [e]; exact hn, by rw [e]; exact hport, by rw [e]; exact hcred, by rw [e]; exact hkeep,
        .inl ⟨by rw [e], fun h => absurd (hk.symm.trans hk') h⟩⟩
    · exact ⟨by rw [e]; exact hk, by rw [e]; exact hT, by rw [e]; exact hn, by rw [e]; exact hport, by rw [e]; exact hcred, by rw [e]; exact hkeep,
        .inl ⟨by rw [e], fun _ => by rw [e]⟩⟩

omit hS in
theorem sendMail_live (hw : Works env) (ha : Accepts env k T tls? C) (m : Message) (hm : MessageOk m) (h : Between72 k T tls? C s) :
    Runs env (sendMail m) (fun c s' => c = 0 ∧ Between72 k T tls? C s') s := by
  unfold sendMail
  apply runs_get
  rcases h.conn with ⟨hc, hb⟩ | ⟨hc, ch, hs, hl⟩
  · rw [if_neg (by simp [hc])]
    apply runs_bind
    refine runs_mono (establish_live hw ha h.kind h.time h.name h.port h.cred h.keep hb) ?_
    rintro _ s1 ⟨rfl, ch, c1, h1, hs1, e1, e2, e3, e4, e5, hkeep⟩
    rw [if_neg (by decide)]
    exact connected_live hw ha m hm (e1.trans h.kind) (by rw [e2]; exact h.time) (by rw [e3]; exact h.name) (by rw [e4]; exact h.port)
      (by rw [e5]; exact h.cred) hkeep hs1 h1
  · rw [if_pos hc]
    exact connected_live hw ha m hm h.kind h.time h.name h.port h.cred h.keep hs hl

omit hS in
theorem Between72.call (h : Between72 k T tls? C s) (c : Call) : Between72 k T tls? C (St.snoc s (.call c)) := by
  refine ⟨h.kind, h.time, h.name, h.port, h.cred, h.keep, ?_⟩
  rcases h.conn with hc | ⟨hc, ch, hs, hl⟩
  · exact .inl hc
  · exact .inr ⟨hc, ch, hs, hl.quiet fun _ => rfl⟩

omit hS in
/-- A setter that does not touch the connection. -/
theorem Between72.set (h : Between72 k T tls? C s) (f : Client → Client)
    (hf : ∀ c l r, f { c with log := l, lastResponse := r } = { f c with log := l, lastResponse := r })
    (hk : (f s.client).kind = s.client.kind) (h1 : (f s.client).ptrRaw = s.client.ptrRaw) (h2 : (f s.client).isConnected = s.client.isConnected)
    (h3 : (f s.client).bio = s.client.bio) (h4 : (f s.client).sock = s.client.sock) (ht : T ≤ (f s.client).timeout)
    (hn : ∃ nm, (f s.client).serverName = some nm ∧ nm.length ≤ 1000) (hp : decimals (f s.client).port ≤ 10)
    (hc : ∀ c, (f s.client).credential = some c → C c) : Between72 k T tls? C { s with client := f s.client } := by
  refine ⟨hk.trans h.kind, ht, hn, hp, hc, fun h' h'' => h.keep h' (by rw [← h1]; exact h''), ?_⟩
  rcases h.conn with ⟨hc, hb⟩ | ⟨hc, ch, hs, hl⟩
  · exact .inl ⟨h2.trans hc, fun h' => h3.trans (hb h')⟩
  · refine .inr ⟨h2.trans hc, ch, ?_, hl.modify f hf⟩
    unfold Speaks72
    dsimp only
    rw [hk, h1, h3, h4]
    exact hs

omit hS in
theorem checkName_length {nm name : Bytes} (h : checkName (some nm) = .ok name) : name.length ≤ nm.length := by
  have e : cstr nm = name := by
    by_cases he : (cstr nm).length = 0
    · simp [checkName, he, throw, throwThe, MonadExceptOf.throw, bind, Except.bind] at h
    · cases ht : trim (cstr nm) with
      | error u' => simp [checkName, he, trimEmpty, ht, bind, Except.bind, pure, Except.pure] at h
      | ok t => cases t <;> simp [checkName, he, trimEmpty, ht, bind, Except.bind, pure, Except.pure, throw, throwThe, MonadExceptOf.throw] at h; exact h
  rw [← e]
  exact (List.takeWhile_prefix _).length_le

/-- What a call gives back when all goes well. -/
def GoesWell : Call → CallRes → Prop
  | .sendMail _, r => r = .returned 0
  | _, r => ∀ n, r ≠ .returned n

omit hS in
theorem doCall_live (hw : Works env) (ha : Accepts env k T tls? C) (c : Call) (hc : InOrder T C c) (h : Between72 k T tls? C s) :
    Runs env (doCall c) (fun r s' => GoesWell c r ∧ Between72 k T tls? C s') s := by
  unfold doCall
  apply runs_bind
  refine runs_iff.mpr ⟨(), St.snoc s (.call c), rfl, ?_⟩
  have h1 := h.call c
  generalize St.snoc s (.call c) = s1 at h1
  cases c with
  | setServerName p =>
    dsimp only
    unfold setServerName
    cases hn : checkName p with
    | error e =>
      cases e with
      | invalidArgument => exact runs_iff.mpr ⟨.threw, s1, rfl, fun _ e => (nomatch e), h1⟩
      | ub u =>
        obtain ⟨_, nm, rfl, x, hx, hh⟩ := checkName_error_high hn
        exact absurd ((hc nm rfl).2 x hx) (by simpa using hh)
    | ok name =>
      dsimp only
      apply runs_bind
      refine runs_iff.mpr ⟨(), { s1 with client := { s1.client with serverName := some name } }, rfl, fun _ e => (nomatch e), ?_⟩
      refine h1.set (fun c => { c with serverName := some name }) (fun _ _ _ => rfl) rfl rfl rfl rfl rfl h1.time ⟨name, rfl, ?_⟩ h1.port h1.cred
      cases p with
      | none => cases hn
      | some nm => exact Nat.le_trans (checkName_length hn) (hc nm rfl).1
  | setServerPort n =>
    exact runs_iff.mpr ⟨.done, _, rfl, fun _ e => (nomatch e), h1.set (fun c => { c with port := n }) (fun _ _ _ => rfl) rfl rfl rfl rfl rfl h1.time h1.name hc h1.cred⟩
  | setBatchMode b =>
    exact runs_iff.mpr ⟨.done, _, rfl, fun _ e => (nomatch e), h1.set (fun c => { c with batch := b }) (fun _ _ _ => rfl) rfl rfl rfl rfl rfl h1.time h1.name h1.port h1.cred⟩
  | setCommandTimeout n =>
    exact runs_iff.mpr ⟨.done, _, rfl, fun _ e => (nomatch e), h1.set (fun c => { c with timeout := n }) (fun _ _ _ => rfl) rfl rfl rfl rfl rfl hc h1.name h1.port h1.cred⟩
  | setCredentials c =>
    exact runs_iff.mpr ⟨.done, _, rfl, fun _ e => (nomatch e), h1.set (fun x => { x with credential := some c }) (fun _ _ _ => rfl) rfl rfl rfl rfl rfl h1.time h1.name h1.port
      (fun c' e => by cases e; exact hc)⟩
  | setKeepUsingBaseSendCommands b => exact hc.elim
  | setAcceptSelfSignedCert b =>
    exact runs_iff.mpr ⟨.done, _, rfl, fun _ e => (nomatch e), h1.set (fun c => { c with acceptSelfSigned := b }) (fun _ _ _ => rfl) rfl rfl rfl rfl rfl h1.time h1.name h1.port h1.cred⟩
  | sendMail m =>
    apply runs_bind
    refine runs_mono (sendMail_live hw ha m hc h1) ?_
    rintro _ s2 ⟨rfl, h2⟩
    exact ⟨rfl, h2⟩

omit hS in
theorem runCalls_live (hw : Works env) (ha : Accepts env k T tls? C) (cs : List Call) (hc : ∀ c ∈ cs, InOrder T C c) (h : Between72 k T tls? C s) :
    Runs env (runCalls cs) (fun rs s' => (rs.length = cs.length ∧ ∀ p ∈ cs.zip rs, GoesWell p.1 p.2) ∧ Between72 k T tls? C s') s := by
  induction cs generalizing s with
  | nil => exact ⟨⟨rfl, by simp⟩, h⟩
  | cons c cs ih =>
    unfold runCalls
    apply runs_bind
    refine runs_mono (doCall_live hw ha c (hc c (by simp)) h) ?_
    rintro r s1 ⟨hr, h1⟩
    apply runs_bind
    refine runs_mono (ih (fun c h => hc c (by simp [h])) h1) ?_
    rintro rs s2 ⟨⟨hl, hf⟩, h2⟩
    refine ⟨⟨by simp [hl], ?_⟩, h2⟩
    intro p hp
    simp only [List.zip_cons_cons, List.mem_cons] at hp
    rcases hp with rfl | hp
    · exact hr
    · exact hf p hp

omit hS in
theorem life_live (hw : Works env) (ha : Accepts env k T tls? C) (cs : List Call) (hc : ∀ c ∈ cs, InOrder T C c) (h : Between72 k T tls? C s) :
    Runs env (life cs) (fun rs _ => rs.length = cs.length ∧ ∀ p ∈ cs.zip rs, GoesWell p.1 p.2) s := by
  unfold life
  apply runs_bind
  refine runs_mono (runCalls_live hw ha cs hc h) ?_
  rintro rs s1 ⟨hr, h1⟩
  apply runs_bind
  unfold destroy
  apply runs_bind
  refine runs_iff.mpr ⟨(), St.snoc s1 .destroy, rfl, ?_⟩
  rcases h1.conn with ⟨hc, _⟩ | ⟨hc, ch, hs, hl⟩
  · exact runs_mono (cleanup_off hw (s := St.snoc s1 .destroy) (.inr hc)) fun _ _ _ => hr
  · exact runs_mono (cleanup_live ⟨hw, ha, h1.time, hs⟩ (hl.quiet fun _ => rfl)) fun _ _ _ => hr

end Verif.Proofs
