import Verif.Proofs.Said
import Verif.Spec.Segments
/-!
# What the client makes of the next reads
-/
namespace Verif.Proofs
open Verif Verif.Model Verif.Spec

variable {α : Type} {env : Env}

/-- The run ends normally, in a way described by `Q`. -/
abbrev Runs (env : Env) (m : M α) (Q : α → St → Prop) (s : St) : Prop := wp env m Q (fun _ _ => False) s

theorem runs_iff {m : M α} {Q : α → St → Prop} {s : St} : Runs env m Q s ↔ ∃ a s', m env s = (.ok a, s') ∧ Q a s' := by
  unfold Runs wp
  cases h : m env s with
  | mk r s' =>
    cases r with
    | ok a =>
      constructor
      · intro hq; exact ⟨a, s', rfl, hq⟩
      · rintro ⟨a', s'', e, hq⟩
        cases e
        exact hq
    | stop e =>
      constructor
      · intro hq; exact hq.elim
      · rintro ⟨a', s'', e, _⟩
        cases e

theorem feeds_ext {ch : Chan} {rs : List RecvRes} {h e : Hist} (hf : Feeds env ch rs h) (he : ∀ x ∈ e, isRead x = false) :
    Feeds env ch rs (h ++ e) := by
  cases rs with
  | nil => trivial
  | cons r rs =>
    intro e' he'
    rw [List.append_assoc]
    exact hf (e ++ e') (by
      intro x hx
      rcases List.mem_append.mp hx with hx | hx
      · exact he x hx
      · exact he' x hx)

/-- The second state comes from the first without reading and without touching the connection. -/
structure Idle (s s' : St) : Prop where
  hist : ∃ e, s'.hist = s.hist ++ e ∧ ∀ x ∈ e, isRead x = false
  kind : s'.client.kind = s.client.kind
  sock : s'.client.sock = s.client.sock
  bio : s'.client.bio = s.client.bio
  timeout : s'.client.timeout = s.client.timeout
  log : HasLog s'

theorem Idle.feeds {s s' : St} (h : Idle s s') {ch : Chan} {rs : List RecvRes} (hf : Feeds env ch rs s.hist) :
    Feeds env ch rs s'.hist := by
  obtain ⟨e, he, hn⟩ := h.hist
  rw [he]
  exact feeds_ext hf hn

theorem Idle.trans {a b c : St} (h : Idle a b) (h' : Idle b c) : Idle a c := by
  obtain ⟨e, he, hn⟩ := h.hist
  obtain ⟨e', he', hn'⟩ := h'.hist
  refine ⟨⟨e ++ e', by rw [he', he, List.append_assoc], ?_⟩, h'.kind.trans h.kind, h'.sock.trans h.sock, h'.bio.trans h.bio,
    h'.timeout.trans h.timeout, h'.log⟩
  intro x hx
  rcases List.mem_append.mp hx with hx | hx
  · exact hn x hx
  · exact hn' x hx

theorem Idle.same {s s' : St} (hl : HasLog s') (hh : s'.hist = s.hist) (h1 : s'.client.kind = s.client.kind)
    (h2 : s'.client.sock = s.client.sock) (h3 : s'.client.bio = s.client.bio) (h4 : s'.client.timeout = s.client.timeout) :
    Idle s s' := ⟨⟨[], by simp [hh], by simp⟩, h1, h2, h3, h4, hl⟩

theorem Idle.snoc {s : St} {ev : Ev} (hl : HasLog s) (h : isRead ev = false) : Idle s (St.snoc s ev) :=
  ⟨⟨[ev], rfl, by simpa using h⟩, rfl, rfl, rfl, rfl, hl⟩

theorem runs_bind {β : Type} {m : M α} {f : α → M β} {Q : β → St → Prop} {s : St}
    (h : Runs env m (fun a s' => Runs env (f a) Q s') s) : Runs env (m >>= f) Q s := by
  unfold Runs
  rw [wp_bind]
  exact h

theorem runs_get {β : Type} {g : Client → α} {f : α → M β} {Q : β → St → Prop} {s : St}
    (h : Runs env (f (g s.client)) Q s) : Runs env (M.gets g >>= f) Q s := h

theorem runs_ask {β : Type} {g : Env → Hist → α} {ev : α → Ev} {f : α → M β} {Q : β → St → Prop} {s : St}
    (h : ∀ r, Runs env (f r) Q (St.snoc s (ev r))) : Runs env (M.ask g ev >>= f) Q s := h _

theorem runs_mono {m : M α} {Q Q' : α → St → Prop} {s : St} (h : Runs env m Q s) (hq : ∀ a s', Q a s' → Q' a s') :
    Runs env m Q' s := wp_mono h hq (fun _ _ h => h)

theorem addLog_idle {s : St} {i p : Bytes} (h : HasLog s) :
    Runs env (addLog i p) (fun _ s' => Idle s s' ∧ s'.client.lastResponse = s.client.lastResponse) s :=
  wp_addLog h fun l _ hl => ⟨.same ⟨l, rfl, hl⟩ rfl rfl rfl rfl rfl, rfl⟩

theorem logErrno_idle {s : St} {e : Int} (h : HasLog s) : Runs env (logErrno e) (fun _ s' => Idle s s') s := by
  unfold logErrno setErrNo
  apply runs_bind
  show Runs env _ _ { s with client := { s.client with lastErrNo := e } }
  refine runs_bind (runs_mono (Q := fun _ s' => s' = { s with client := { s.client with lastErrNo := e } }) rfl ?_)
  rintro t s' rfl
  refine runs_mono (addLog_idle (s := { s with client := { s.client with lastErrNo := e } }) h) ?_
  rintro _ s' ⟨h1, _⟩
  exact (Idle.same (s := s) (s' := { s with client := { s.client with lastErrNo := e } }) h rfl rfl rfl rfl rfl).trans h1

theorem setNonBlocking_idle {s : St} (h : HasLog s) : Runs env setNonBlocking (fun _ s' => Idle s s') s := by
  unfold setNonBlocking sysFcntlGet sysFcntlSet
  apply runs_get
  apply runs_ask
  intro r
  have h1 : Idle s (St.snoc s (.fcntlGet s.client.sock r)) := .snoc h rfl
  apply runs_bind
  have h2 : Runs env (logIfErr r) (fun _ s' => Idle s s') (St.snoc s (.fcntlGet s.client.sock r)) := by
    cases r with
    | ok => exact h1
    | err e => exact runs_mono (logErrno_idle h1.log) fun _ _ h' => h1.trans h'
  refine runs_mono h2 ?_
  intro _ s2 h2
  apply runs_ask
  intro r
  have h3 : Idle s (St.snoc s2 (.fcntlSet s.client.sock true r)) := h2.trans (.snoc h2.log rfl)
  cases r with
  | ok => exact h3
  | err e => exact runs_bind (runs_mono (logErrno_idle h3.log) fun _ _ h' => h3.trans h')

theorem setBlocking_idle {s : St} (h : HasLog s) : Runs env setBlocking (fun _ s' => Idle s s') s := by
  unfold setBlocking sysFcntlGet sysFcntlSet
  apply runs_get
  apply runs_ask
  intro r
  have h1 : Idle s (St.snoc s (.fcntlGet s.client.sock r)) := .snoc h rfl
  cases r with
  | err e => exact runs_bind (runs_mono (logErrno_idle h1.log) fun _ _ h' => h1.trans h')
  | ok =>
    apply runs_ask
    intro r
    have h3 : Idle s (St.snoc (St.snoc s (.fcntlGet s.client.sock .ok)) (.fcntlSet s.client.sock false r)) := h1.trans (.snoc h1.log rfl)
    cases r with
    | ok => exact h3
    | err e => exact runs_bind (runs_mono (logErrno_idle h3.log) fun _ _ h' => h3.trans h')

theorem sysRecv_feeds {ch : Chan} {s : St} {r : RecvRes} {rs : List RecvRes} (hf : Feeds env ch (r :: rs) s.hist) (hr : r ≠ .never) :
    Runs env (sysRecv ch) (fun a s' => a = r ∧ s' = St.snoc s (.recv ch r) ∧ Feeds env ch rs s'.hist) s := by
  have := hf [] (by simp)
  simp only [List.append_nil] at this
  obtain ⟨h1, h2⟩ := this
  unfold sysRecv
  apply runs_bind
  have e : (M.ask (fun e h => normRecv (nonblocking ch.fd h) (e.recv h ch)) (.recv ch)) env s = (.ok r, St.snoc s (.recv ch r)) := by
    unfold answer at h1
    unfold M.ask St.snoc
    dsimp only
    rw [h1]
  refine runs_iff.mpr ⟨_, _, e, ?_⟩
  rw [if_neg hr]
  exact ⟨rfl, rfl, h2⟩


/-- The loop of the raw reply, in the middle of a batch. -/
theorem rawReplyLoop_chunks (chunks : List Bytes) (hc : ∀ c ∈ chunks, c.length < 1024 ∧ 0 ∉ c) (rest : List RecvRes)
    (n wait : Nat) (acc : Bytes) (got : Bool) (s : St) (hn : chunks.length < n) (hw : wait < s.client.timeout)
    (hg : chunks ≠ [] ∨ got = true) (hf : Feeds env (.raw s.client.sock) (chunks.map .data ++ .err :: rest) s.hist) :
    Runs env (rawReplyLoop n wait acc got) (fun a s' => a = (wait, acc ++ chunks.flatten, true) ∧ s'.client = s.client ∧
      Feeds env (.raw s.client.sock) rest s'.hist) s := by
  induction chunks generalizing n acc got s with
  | nil =>
    obtain ⟨n, rfl⟩ : ∃ n', n = n' + 1 := ⟨n - 1, by simp at hn; omega⟩
    unfold rawReplyLoop
    apply runs_bind
    show Runs env _ _ s
    apply runs_bind
    show Runs env _ _ s
    apply runs_bind
    refine runs_mono (sysRecv_feeds hf (by simp)) ?_
    rintro _ s' ⟨rfl, rfl, hf'⟩
    have : got = true := by simpa using hg
    subst this
    exact ⟨by simp, rfl, hf'⟩
  | cons c cs ih =>
    obtain ⟨n, rfl⟩ : ∃ n', n = n' + 1 := ⟨n - 1, by simp at hn; omega⟩
    unfold rawReplyLoop
    apply runs_bind
    show Runs env _ _ s
    apply runs_bind
    show Runs env _ _ s
    apply runs_bind
    refine runs_mono (sysRecv_feeds hf (by simp)) ?_
    rintro _ s' ⟨rfl, rfl, hf'⟩
    have hc1 := hc c (by simp)
    dsimp only
    rw [if_neg (by omega), if_pos hw]
    refine runs_mono (ih (fun c' h' => hc c' (by simp [h'])) n (acc ++ cstr c) true _ (by simp at hn; omega) hw (.inr rfl) hf') ?_
    rintro _ s' ⟨rfl, h2, h3⟩
    rw [cstr_eq_self hc1.2]
    exact ⟨by simp, h2, h3⟩

/-- … and while it waits for the batch. -/
theorem rawReplyLoop_batch (w : List RecvRes) (hw : ∀ r ∈ w, r = .eof ∨ r = .err) (chunks : List Bytes)
    (hc : ∀ c ∈ chunks, c.length < 1024 ∧ 0 ∉ c) (hne : chunks ≠ []) (rest : List RecvRes)
    (n wait : Nat) (s : St) (hn : w.length + chunks.length < n) (ht : wait + w.length < s.client.timeout)
    (hf : Feeds env (.raw s.client.sock) (w ++ (chunks.map .data ++ .err :: rest)) s.hist) :
    Runs env (rawReplyLoop n wait [] false) (fun a s' => (∃ k, k < s.client.timeout ∧ a = (k, chunks.flatten, true)) ∧
      s'.client = s.client ∧ Feeds env (.raw s.client.sock) rest s'.hist) s := by
  induction w generalizing n wait s with
  | nil =>
    refine runs_mono (rawReplyLoop_chunks chunks hc rest n wait [] false s (by simp at hn; omega) (by simpa using ht) (.inl hne) hf) ?_
    rintro _ s' ⟨rfl, h2, h3⟩
    exact ⟨⟨wait, by simpa using ht, by simp⟩, h2, h3⟩
  | cons r w ih =>
    obtain ⟨n, rfl⟩ : ∃ n', n = n' + 1 := ⟨n - 1, by simp at hn; omega⟩
    simp only [List.length_cons] at hn ht
    unfold rawReplyLoop
    apply runs_bind
    show Runs env _ _ s
    apply runs_bind
    show Runs env _ _ s
    apply runs_bind
    have hr := hw r (by simp)
    refine runs_mono (sysRecv_feeds hf (by rcases hr with rfl | rfl <;> simp)) ?_
    rintro r' s' ⟨hrr, rfl, hf'⟩
    subst r'
    have key : Runs env (do sysSleep; if wait + 1 < s.client.timeout then rawReplyLoop n (wait + 1) [] false else pure (wait + 1, [], false))
        (fun a s' => (∃ k, k < s.client.timeout ∧ a = (k, chunks.flatten, true)) ∧
          s'.client = s.client ∧ Feeds env (.raw s.client.sock) rest s'.hist) (St.snoc s (.recv (.raw s.client.sock) r)) := by
      apply runs_bind
      show Runs env _ _ (St.snoc (St.snoc s (.recv (.raw s.client.sock) r)) .sleep)
      rw [if_pos (by omega)]
      exact ih (fun r' h' => hw r' (by simp [h'])) n (wait + 1) (St.snoc (St.snoc s (.recv (.raw s.client.sock) r)) .sleep) (by omega)
        (by show wait + 1 + w.length < s.client.timeout; omega) (feeds_ext hf' (e := [.sleep]) (by simp [isRead]))
    rcases hr with rfl | rfl
    · dsimp only
      rw [if_neg (by simp)]
      exact key
    · dsimp only
      rw [if_neg (by simp)]
      exact key

/-- The text was read and is the last response; the rest is still to come. -/
structure Fetched (env : Env) (ch : Chan) (t : Bytes) (rest : List RecvRes) (s s' : St) : Prop where
  kind : s'.client.kind = s.client.kind
  sock : s'.client.sock = s.client.sock
  bio : s'.client.bio = s.client.bio
  timeout : s'.client.timeout = s.client.timeout
  log : HasLog s'
  resp : s'.client.lastResponse = some t
  feeds : Feeds env ch rest s'.hist

/-- A text with the code 250. -/
theorem code_250 {t : Bytes} (h : b!"250" <+: t) : extractReturnCode (some t) = 250 := by
  obtain ⟨r, rfl⟩ := h
  have hc : cstr (50 :: 53 :: 48 :: r) = 50 :: 53 :: 48 :: cstr r := by simp [cstr, List.takeWhile]
  show extractReturnCode (some (50 :: 53 :: 48 :: r)) = 250
  simp only [extractReturnCode, hc, List.take, List.length_cons]
  rw [if_pos (by omega)]
  rfl


theorem getRawReply_batch {p : Bytes} {a rest : List RecvRes} {s : St} (hl : HasLog s) (hd : ClearBatch s.client.timeout p a)
    (h0 : 0 ∉ p) (h250 : b!"250" <+: p) (hfuel : a.length ≤ env.fuel) (hf : Feeds env (.raw s.client.sock) (a ++ rest) s.hist) :
    Runs env getRawReply (fun c s' => c = 250 ∧ Fetched env (.raw s.client.sock) p rest s s') s := by
  obtain ⟨w, chunks, ⟨hw1, hw2⟩, hne, hlen, rfl, rfl⟩ := hd
  unfold getRawReply
  apply runs_bind
  refine runs_mono (setNonBlocking_idle hl) ?_
  intro _ s1 i1
  apply runs_bind
  show Runs env _ _ s1
  apply runs_bind
  have hf1 := i1.feeds hf
  rw [← i1.sock] at hf1
  have hz : ∀ c ∈ chunks, 0 ∉ c := by
    intro c hc hm
    exact h0 (List.mem_flatten.mpr ⟨c, hc, hm⟩)
  simp only [List.length_append, List.length_map, List.length_cons, List.length_nil] at hfuel
  refine runs_mono (rawReplyLoop_batch w hw2 chunks (fun c hc => ⟨hlen c hc, hz c hc⟩) hne rest env.fuel 0 s1 (by omega)
    (by rw [i1.timeout]; omega) (by simpa using hf1)) ?_
  rintro _ s2 ⟨⟨k, hk, rfl⟩, hc2, hf2⟩
  dsimp only
  apply runs_bind
  have hl2 : HasLog s2 := by
    obtain ⟨l, hl, ho⟩ := i1.log
    exact ⟨l, by rw [hc2]; exact hl, ho⟩
  refine runs_mono (setBlocking_idle hl2) ?_
  intro _ s3 i3
  apply runs_get
  rw [if_pos (.inr rfl)]
  have hf3 := i3.feeds hf2
  apply runs_bind
  show Runs env _ _ { s3 with client := { s3.client with lastResponse := some (cstr chunks.flatten) }, mem := s3.mem ++ [.response (cstr chunks.flatten)] }
  apply runs_bind
  refine runs_mono (addLog_idle (s := { s3 with client := { s3.client with lastResponse := some (cstr chunks.flatten) }, mem := s3.mem ++ [.response (cstr chunks.flatten)] }) i3.log) ?_
  rintro _ s4 ⟨i4, hr4⟩
  refine ⟨code_250 h250, ⟨i4.kind.trans (i3.kind.trans ?_), i4.sock.trans (i3.sock.trans ?_), i4.bio.trans (i3.bio.trans ?_),
    i4.timeout.trans (i3.timeout.trans ?_), i4.log, ?_, ?_⟩⟩
  · rw [hc2]; exact i1.kind
  · rw [hc2]; exact i1.sock
  · rw [hc2]; exact i1.bio
  · rw [hc2]; exact i1.timeout
  · rw [hr4]
    show some (cstr chunks.flatten) = _
    rw [cstr_eq_self h0]
  · rw [← i1.sock]
    exact i4.feeds (s := { s3 with client := { s3.client with lastResponse := some (cstr chunks.flatten) }, mem := s3.mem ++ [.response (cstr chunks.flatten)] }) hf3

theorem waitLoop_feeds {ch : Chan} {p : Bytes} {rest : List RecvRes} {read : M RecvRes} (w : List RecvRes)
    (hw : ∀ r ∈ w, r = .eof ∨ r = .err) (t : Nat) (ht : w.length < t) (s : St)
    (hr : ∀ s' : St, s'.client = s.client → read env s' = sysRecv ch env s')
    (hf : Feeds env ch (w ++ .data p :: rest) s.hist) :
    Runs env (waitLoop read t) (fun a s' => a = some p ∧ s'.client = s.client ∧ Feeds env ch rest s'.hist) s := by
  induction w generalizing t s with
  | nil =>
    obtain ⟨t, rfl⟩ : ∃ t', t = t' + 1 := ⟨t - 1, by simp at ht; omega⟩
    unfold waitLoop
    apply runs_bind
    show wp env read _ _ s
    unfold wp
    rw [hr s rfl]
    refine runs_mono (sysRecv_feeds hf (by simp)) ?_
    rintro _ s' ⟨rfl, rfl, hf'⟩
    exact ⟨rfl, rfl, hf'⟩
  | cons r w ih =>
    obtain ⟨t, rfl⟩ : ∃ t', t = t' + 1 := ⟨t - 1, by simp at ht; omega⟩
    simp only [List.length_cons] at ht
    unfold waitLoop
    apply runs_bind
    show wp env read _ _ s
    unfold wp
    rw [hr s rfl]
    have hr' := hw r (by simp)
    refine runs_mono (sysRecv_feeds hf (by rcases hr' with rfl | rfl <;> simp)) ?_
    rintro r' s' ⟨hrr, rfl, hf'⟩
    subst r'
    have key : Runs env (do sysSleep; waitLoop read t) (fun a s' => a = some p ∧ s'.client = s.client ∧ Feeds env ch rest s'.hist)
        (St.snoc s (.recv ch r)) := by
      apply runs_bind
      exact ih (fun r' h' => hw r' (by simp [h'])) t (by omega) (St.snoc (St.snoc s (.recv ch r)) .sleep) (fun s' h => hr s' h)
        (feeds_ext hf' (e := [.sleep]) (by simp [isRead]))
    rcases hr' with rfl | rfl
    · exact key
    · exact key

theorem getTlsReply_record {b : Bio} {p : Bytes} {a rest : List RecvRes} {s : St} (hb : s.client.bio = some b) (hl : HasLog s)
    (hd : TlsRecord s.client.timeout p a) (h0 : 0 ∉ p) (h250 : b!"250" <+: p.dropLast)
    (hf : Feeds env (.tls b.id b.fd) (a ++ rest) s.hist) :
    Runs env getTlsReply (fun c s' => c = 250 ∧ Fetched env (.tls b.id b.fd) p.dropLast rest s s') s := by
  obtain ⟨w, ⟨hw1, hw2⟩, rfl⟩ := hd
  unfold getTlsReply
  apply runs_bind
  show Runs env _ _ s
  apply runs_bind
  have hread : ∀ s' : St, s'.client = s.client → bioRead env s' = sysRecv (.tls b.id b.fd) env s' := by
    intro s' h
    unfold bioRead
    rw [bind_run, gets_run, h, hb]
  refine runs_mono (waitLoop_feeds w hw2 s.client.timeout hw1 s hread (by simpa using hf)) ?_
  rintro _ s2 ⟨rfl, hc2, hf2⟩
  dsimp only
  have h0' : 0 ∉ p.dropLast := fun h => h0 (List.dropLast_subset _ h)
  have ht : bufferText p = p.dropLast := cstr_eq_self h0'
  rw [ht]
  apply runs_bind
  show Runs env _ _ { s2 with client := { s2.client with lastResponse := some (cstr p.dropLast) }, mem := s2.mem ++ [.response (cstr p.dropLast)] }
  apply runs_bind
  have hl2 : HasLog { s2 with client := { s2.client with lastResponse := some (cstr p.dropLast) }, mem := s2.mem ++ [.response (cstr p.dropLast)] } := by
    obtain ⟨l, hl, ho⟩ := hl
    exact ⟨l, by show s2.client.log = _; rw [hc2]; exact hl, ho⟩
  refine runs_mono (addLog_idle hl2) ?_
  rintro _ s4 ⟨i4, hr4⟩
  refine ⟨code_250 h250, ⟨i4.kind.trans ?_, i4.sock.trans ?_, i4.bio.trans ?_, i4.timeout.trans ?_, i4.log, ?_, i4.feeds hf2⟩⟩
  · show s2.client.kind = _; rw [hc2]
  · show s2.client.sock = _; rw [hc2]
  · show s2.client.bio = _; rw [hc2]
  · show s2.client.timeout = _; rw [hc2]
  · rw [hr4]
    show some (cstr p.dropLast) = _
    rw [cstr_eq_self h0']

end Verif.Proofs
