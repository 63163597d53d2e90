import Verif.Spec.Welcome
import Verif.Proofs.Offers
/-!
# Replies, read by read
-/
namespace Verif.Proofs
open Verif Verif.Model Verif.Spec

variable {α : Type} {env : Env}

theorem readsOf_append (a b : Hist) : readsOf (a ++ b) = readsOf a ++ readsOf b := List.filterMap_append

/-- The text of the reads. -/
def textOf (rs : List RecvRes) : Bytes := rs.flatMap fun r => match r with
  | .data d => upToNul d
  | _ => []

theorem textOf_append (a b : List RecvRes) : textOf (a ++ b) = textOf a ++ textOf b := List.flatMap_append

theorem quiet_silent {e : Ev} (h : QuietEv e) : ¬ IsSend e := by cases e <;> simp_all [QuietEv, DeafEv, IsSend]

theorem deaf_reads {h : Hist} (hd : ∀ e ∈ h, DeafEv e) : readsOf h = [] := by
  unfold readsOf
  rw [List.filterMap_eq_nil_iff]
  intro e he
  have := hd e he
  cases e <;> simp_all [DeafEv]

/-- Nothing said, and these reads were made on the channel. -/
def Took (ch : Chan) (rs : List RecvRes) (s s' : St) : Prop :=
  SameConn s.client s'.client ∧ ∃ evs, s'.hist = s.hist ++ evs ∧ (∀ e ∈ evs, QuietEv e) ∧ heard evs = textOf rs ∧ readsOf evs = rs.map (ch, ·)

theorem Deaf.took {s s' : St} (ch : Chan) (h : Deaf s s') : Took ch [] s s' := by
  obtain ⟨hc, evs, h1, h2⟩ := h
  exact ⟨hc, evs, h1, fun e he => deaf_quiet (h2 e he), heard_deaf h2, deaf_reads h2⟩

theorem Took.trans {ch : Chan} {t u : List RecvRes} {a b c : St} (h : Took ch t a b) (h' : Took ch u b c) : Took ch (t ++ u) a c := by
  obtain ⟨hc, x, hx, qx, tx, rx⟩ := h
  obtain ⟨hc', y, hy, qy, ty, ry⟩ := h'
  refine ⟨hc.trans hc', x ++ y, by rw [hy, hx, List.append_assoc], ?_, by rw [heard_append, tx, ty, textOf_append], by
    rw [readsOf_append, rx, ry, List.map_append]⟩
  intro e he
  rcases List.mem_append.mp he with he | he
  · exact qx e he
  · exact qy e he

theorem Took.then_deaf {ch : Chan} {t : List RecvRes} {a b c : St} (h : Took ch t a b) (h' : Deaf b c) : Took ch t a c := by
  have := h.trans (h'.took ch); rwa [List.append_nil] at this
theorem Deaf.then_took {ch : Chan} {t : List RecvRes} {a b c : St} (h : Deaf a b) (h' : Took ch t b c) : Took ch t a c := (h.took ch).trans h'

theorem Took.heard {ch : Chan} {t : List RecvRes} {a b : St} (h : Took ch t a b) : Heard (textOf t) a b := by
  obtain ⟨hc, x, hx, qx, tx, _⟩ := h
  exact ⟨hc, x, hx, qx, tx⟩

theorem sysRecv_took (ch : Chan) (s : St) : post env (sysRecv ch) (fun r s' => Took ch [r] s s') s := by
  unfold sysRecv post
  simp only [wp_bind, wp_ask, wp_ite, wp_stop, wp_pure]
  refine ⟨fun _ => trivial, fun h => ⟨rfl, _, rfl, by simp [QuietEv], ?_, by simp [readsOf]⟩⟩
  simp only [heard, textOf, List.flatMap_cons, List.flatMap_nil, List.append_nil]
  unfold hear
  split
  · rename_i h1; simp at h1; rw [h1.2]
  · rename_i h1
    split
    · rename_i h2; simp at h1; exact absurd h2 (h1 _ _ rfl)
    · rfl

/-- The reads of the loop that collects a raw reply. -/
def RawReads (got : Bool) (rs : List RecvRes) : Prop :=
  if got then .err ∉ rs.dropLast else ∃ w p, rs = w ++ p ∧ (∀ x ∈ w, ∀ d, x ≠ .data d) ∧ .err ∉ p.dropLast

theorem RawReads.one {got : Bool} (r : RecvRes) : RawReads got [r] := by
  unfold RawReads
  split
  · simp
  · exact ⟨[], [r], rfl, by simp, by simp⟩

theorem dropLast_cons {x : RecvRes} {l : List RecvRes} (hx : x ≠ .err) (h : .err ∉ l.dropLast) : .err ∉ (x :: l).dropLast := by
  cases l with
  | nil => simp
  | cons y l => simp only [List.dropLast_cons_cons, List.mem_cons, not_or]; exact ⟨fun e => hx e.symm, h⟩

theorem RawReads.data {got : Bool} {rs : List RecvRes} {d : Bytes} (h : RawReads true rs) : RawReads got (.data d :: rs) := by
  have h : .err ∉ rs.dropLast := h
  have h' := dropLast_cons (x := .data d) (by simp) h
  unfold RawReads
  split
  · exact h'
  · exact ⟨[], _, rfl, by simp, h'⟩

theorem RawReads.wait {got : Bool} {rs : List RecvRes} {r : RecvRes} (hr : ∀ d, r ≠ .data d) (hg : ¬ (r = .err ∧ got = true)) (h : RawReads got rs) :
    RawReads got (r :: rs) := by
  unfold RawReads at h ⊢
  cases got with
  | true => exact dropLast_cons (fun e => hg ⟨e, rfl⟩) h
  | false =>
    obtain ⟨w, p, rfl, h1, h2⟩ := h
    refine ⟨r :: w, p, rfl, fun x hx => ?_, h2⟩
    rcases List.mem_cons.mp hx with rfl | hx
    · exact hr
    · exact h1 x hx

theorem rawReplyLoop_took (n w acc got) (s : St) :
    post env (rawReplyLoop n w acc got) (fun r s' => ∃ rs, r.2.1 = acc ++ textOf rs ∧ Took (.raw s.client.sock) rs s s' ∧ RawReads got rs) s := by
  induction n generalizing w acc got s with
  | zero => trivial
  | succ n ih =>
    unfold rawReplyLoop post
    simp only [wp_bind, wp_gets]
    refine post_mono (sysRecv_took _ s) (fun r s1 h => ?_)
    have hsock : s1.client.sock = s.client.sock := by have := h.1; unfold SameConn at this; rw [this]
    split
    · rename_i d
      rw [wp_ite]
      refine ⟨fun _ => trivial, fun _ => ?_⟩
      rw [wp_ite]
      refine ⟨fun _ => ?_, fun _ => ⟨_, by simp [textOf, cstr_upToNul], h, .one _⟩⟩
      refine post_mono (ih w (acc ++ cstr d) true s1) ?_
      rintro r s2 ⟨rs, e, h2, h3⟩
      rw [hsock] at h2
      exact ⟨.data d :: rs, by rw [e, cstr_upToNul]; simp [textOf], h.trans h2, h3.data⟩
    · rename_i hr
      have htext : textOf [r] = [] := by
        unfold textOf
        simp only [List.flatMap_cons, List.flatMap_nil, List.append_nil]
      rw [wp_ite]
      refine ⟨fun _ => ⟨[r], by simp [htext], h, .one r⟩, fun hg => ?_⟩
      rw [wp_bind]
      unfold sysSleep
      rw [wp_emit]
      have hs : Took (.raw s.client.sock) [r] s { s1 with hist := s1.hist ++ [.sleep] } := h.then_deaf (Sleeping.sleep (R := Deaf) s1)
      rw [wp_ite]
      refine ⟨fun _ => ?_, fun _ => ⟨[r], by simp [htext], hs, .one r⟩⟩
      refine post_mono (ih (w + 1) acc got _) ?_
      rintro x s2 ⟨rs, e, h2, h3⟩
      have h2 : Took (.raw s.client.sock) rs { s1 with hist := s1.hist ++ [.sleep] } s2 := by rw [← hsock]; exact h2
      refine ⟨r :: rs, ?_, hs.trans h2, h3.wait (fun d e => hr d e) hg⟩
      rw [e, show r :: rs = [r] ++ rs from rfl, textOf_append, htext, List.nil_append]

/-- One reply with this code was read, or there is no code. -/
def GotReply (ch : Chan) (code : Int) (s s' : St) : Prop :=
  SameConn s.client s'.client ∧ (code ≠ -1 → ∃ evs, s'.hist = s.hist ++ evs ∧ OneReply ch code evs)

theorem Took.reply {ch : Chan} {rs w p : List RecvRes} {s s' : St} {code : Int} (h : Took ch rs s s') (e : rs = w ++ p)
    (hw : ∀ x ∈ w, ∀ d, x ≠ .data d) (hp : OnePiece ch p) (hc : code = -1 ∨ ReplyCode (textOf rs) code) : GotReply ch code s s' := by
  obtain ⟨hs, evs, h1, h2, h3, h4⟩ := h
  refine ⟨hs, fun hne => ⟨evs, h1, fun e he => quiet_silent (h2 e he), ?_, w, p, by rw [h4, e], hw, hp⟩⟩
  rw [h3]
  exact hc.resolve_left hne

theorem getRawReply_took (s : St) : post env getRawReply (fun code s' => GotReply (.raw s.client.sock) code s s') s := by
  unfold getRawReply post
  rw [wp_bind]
  refine wp_mono (setNonBlocking_steps (R := Deaf).run s) (fun _ s1 h1 => ?_) (fun _ _ _ => trivial)
  have hsock : s1.client.sock = s.client.sock := by have := h1.1; unfold SameConn at this; rw [this]
  simp only [wp_bind, wp_env]
  refine post_mono (rawReplyLoop_took _ _ _ _ s1) ?_
  rintro ⟨w, acc, got⟩ s2 ⟨rs, ht, h2, w, p, e, hw, hp⟩
  rw [List.nil_append] at ht
  dsimp only at ht
  subst ht
  rw [hsock] at h2
  have h2 := h1.then_took h2
  dsimp only
  refine wp_mono (setBlocking_steps (R := Deaf).run s2) (fun _ s3 h3 => ?_) (fun _ _ _ => trivial)
  have h3 := h2.then_deaf h3
  simp only [wp_gets, wp_ite, wp_bind, wp_pure]
  refine ⟨fun _ => ?_, fun _ => h3.reply e hw hp (.inl rfl)⟩
  refine wp_mono (setLastServerResponse_steps (R := Deaf) _ |>.run s3) (fun _ s4 h4 => ?_) (fun _ _ _ => trivial)
  refine wp_mono (addLog_steps (R := Deaf) _ _ |>.run s4) (fun _ s5 h5 => ?_) (fun _ _ _ => trivial)
  have h5 := (h3.then_deaf h4).then_deaf h5
  refine h5.reply e hw hp ?_
  have := extract_code (textOf rs)
  rwa [h5.heard.no_nul] at this

/-- The reads of the loop that waits for one text. -/
theorem waitLoop_took {read : M RecvRes} {ch : Chan} {P : St → Prop} (hP : ∀ {a b rs}, Took ch rs a b → P a → P b)
    (hr : ∀ s, P s → post env read (fun r s' => Took ch [r] s s') s) (n) (s : St) (hs : P s) :
    post env (waitLoop read n) (fun r s' => ∃ rs, Took ch rs s s' ∧
      match r with | some d => ∃ w, rs = w ++ [.data d] ∧ ∀ x ∈ w, ∀ d, x ≠ .data d | none => True) s := by
  induction n generalizing s with
  | zero =>
    unfold waitLoop post
    rw [wp_bind]
    refine post_mono (hr s hs) (fun r s1 h => ?_)
    rw [wp_pure]
    exact ⟨_, h, trivial⟩
  | succ n ih =>
    unfold waitLoop post
    rw [wp_bind]
    refine post_mono (hr s hs) (fun r s1 h => ?_)
    split
    · exact ⟨_, h, [], rfl, by simp⟩
    · rename_i hd
      rw [wp_bind]
      unfold sysSleep
      rw [wp_emit]
      have h' : Took ch [r] s { s1 with hist := s1.hist ++ [.sleep] } := h.then_deaf (Sleeping.sleep (R := Deaf) s1)
      refine post_mono (ih _ (hP h' hs)) ?_
      rintro x s2 ⟨rs, h2, h3⟩
      refine ⟨r :: rs, h'.trans h2, ?_⟩
      cases x with
      | none => trivial
      | some d =>
        obtain ⟨w, rfl, hw⟩ := h3
        refine ⟨r :: w, rfl, fun x hx => ?_⟩
        rcases List.mem_cons.mp hx with rfl | hx
        · exact fun d e => hd d e
        · exact hw x hx

theorem bioRead_took {b : Bio} (s : St) (hb : s.client.bio = some b) : post env bioRead (fun r s' => Took (.tls b.id b.fd) [r] s s') s := by
  unfold bioRead post
  rw [wp_bind, wp_gets, hb]
  exact sysRecv_took _ s

theorem textOf_wait {w : List RecvRes} (h : ∀ x ∈ w, ∀ d, x ≠ .data d) : textOf w = [] := by
  unfold textOf
  rw [List.flatMap_eq_nil_iff]
  intro x hx
  split
  · exact absurd rfl (h _ hx _)
  · rfl

theorem textOf_one {w : List RecvRes} {d : Bytes} (h : ∀ x ∈ w, ∀ d, x ≠ .data d) : textOf (w ++ [.data d]) = upToNul d := by
  rw [textOf_append, textOf_wait h]
  simp [textOf]

theorem SameConn.bio {c c' : Client} (h : SameConn c c') : c'.bio = c.bio := by unfold SameConn at h; rw [h]
theorem SameConn.sock {c c' : Client} (h : SameConn c c') : c'.sock = c.sock := by unfold SameConn at h; rw [h]
theorem SameConn.kind {c c' : Client} (h : SameConn c c') : c'.kind = c.kind := by unfold SameConn at h; rw [h]

/-- The channel that a command with feedback and its reply use. -/
def feedbackChan (c : Client) : Chan :=
  if c.kind = .smtp then .raw c.sock else match c.bio with
    | none => .raw c.sock
    | some b => .tls b.id b.fd

theorem SameConn.feedbackChan {c c' : Client} (h : SameConn c c') : feedbackChan c' = feedbackChan c := by
  unfold Proofs.feedbackChan
  rw [h.bio, h.sock, h.kind]

theorem waitLoop_null (n) (s : St) (hb : s.client.bio = none) : post env (waitLoop bioRead n) (fun r s' => r = none ∧ Deaf s s') s := by
  have read : ∀ s : St, s.client.bio = none → post env bioRead (fun r s' => r = .err ∧ s' = s) s := by
    intro s hb
    unfold bioRead post
    rw [wp_bind, wp_gets, hb]
    exact ⟨rfl, rfl⟩
  induction n generalizing s with
  | zero =>
    unfold waitLoop post
    rw [wp_bind]
    refine post_mono (read s hb) ?_
    rintro r s1 ⟨rfl, rfl⟩
    exact ⟨rfl, Preord.refl (R := Deaf) s1⟩
  | succ n ih =>
    unfold waitLoop post
    rw [wp_bind]
    refine post_mono (read s hb) ?_
    rintro r s1 ⟨rfl, rfl⟩
    dsimp only
    rw [wp_bind]
    unfold sysSleep
    rw [wp_emit]
    have h' : Deaf s1 { s1 with hist := s1.hist ++ [.sleep] } := Sleeping.sleep (R := Deaf) s1
    refine post_mono (ih _ hb) ?_
    rintro x s2 ⟨rfl, h2⟩
    exact ⟨rfl, Preord.trans (R := Deaf) h' h2⟩

theorem tlsReply_took {b : Bio} (s : St) (hb : s.client.bio = some b) :
    post env getTlsReply (fun code s' => GotReply (.tls b.id b.fd) code s s') s := by
  unfold getTlsReply post
  simp only [wp_bind, wp_gets]
  refine post_mono (waitLoop_took (P := fun s => s.client.bio = some b) (fun h hp => (h.1.bio).trans hp) (fun s hs => bioRead_took s hs) _ s hb) ?_
  rintro r s1 ⟨rs, h, h'⟩
  cases r with
  | none => exact ⟨h.1, fun hne => absurd rfl hne⟩
  | some d =>
    obtain ⟨w, e, hw⟩ := h'
    dsimp only
    rw [wp_bind]
    refine wp_mono (setLastServerResponse_steps (R := Deaf) _ |>.run s1) (fun _ s2 h2 => ?_) (fun _ _ _ => trivial)
    rw [wp_bind]
    refine wp_mono (addLog_steps (R := Deaf) _ _ |>.run s2) (fun _ s3 h3 => ?_) (fun _ _ _ => trivial)
    refine ((h.then_deaf h2).then_deaf h3).reply e hw ⟨d, rfl⟩ ?_
    rw [e, textOf_one hw]
    exact buffer_code d

/-- Reading one more piece of a reply. -/
theorem getServerReply_took (s : St) : post env getServerReply (fun code s' => GotReply (feedbackChan s.client) code s s') s := by
  unfold getServerReply post
  simp only [wp_bind, wp_gets, wp_ite]
  refine ⟨fun h => ?_, fun h => ?_⟩
  · have : feedbackChan s.client = .raw s.client.sock := by unfold feedbackChan; rw [if_pos (by simpa using h)]
    rw [this]
    exact getRawReply_took s
  · cases hb : s.client.bio with
    | some b =>
      have : feedbackChan s.client = .tls b.id b.fd := by unfold feedbackChan; rw [if_neg (by simpa using h), hb]
      rw [this]
      exact tlsReply_took s hb
    | none =>
      unfold getTlsReply
      simp only [wp_bind, wp_gets]
      refine post_mono (waitLoop_null _ s hb) ?_
      rintro r s1 ⟨rfl, h1⟩
      exact ⟨h1.1, fun hne => absurd rfl hne⟩

/-! ### The greeting -/

theorem greetingResult_took {ch : Chan} {rs w : List RecvRes} {d : Bytes} {s s1 : St} (h : Took ch rs s s1) (e : rs = w ++ [.data d])
    (hw : ∀ x ∈ w, ∀ d, x ≠ .data d) : post env (greetingResult (some d)) (fun code s' => GotReply ch code s s') s1 := by
  have one : OnePiece ch [.data d] := by cases ch <;> simp [OnePiece]
  have code : extractReturnCode (some (bufferText d)) = -1 ∨ ReplyCode (textOf rs) (extractReturnCode (some (bufferText d))) := by
    rw [e, textOf_one hw]; exact buffer_code d
  unfold greetingResult post
  dsimp only
  rw [wp_bind]
  refine wp_mono (addLog_steps (R := Deaf) _ _ |>.run s1) (fun _ s2 h2 => ?_) (fun _ _ _ => trivial)
  rw [wp_ite]
  refine ⟨fun _ => ?_, fun _ => (h.then_deaf h2).reply e hw one code⟩
  rw [wp_bind]
  refine wp_mono (addLog_steps (R := Deaf) _ _ |>.run s2) (fun _ s3 h3 => ?_) (fun _ _ _ => trivial)
  exact ((h.then_deaf h2).then_deaf h3).reply e hw one code

/-- The greeting is read on this channel. -/
def hailChan (c : Client) : Chan :=
  if c.kind = .forced then feedbackChan c else .raw c.sock

theorem checkServerGreetings_took (s : St) :
    post env checkServerGreetings (fun code s' => SameConn s.client s'.client ∧
      (code = 220 → ∃ evs, s'.hist = s.hist ++ evs ∧ OneReply (hailChan s.client) 220 evs)) s := by
  have done : ∀ {ch : Chan} {r : Option Bytes} {s1 : St}, (∃ rs, Took ch rs s s1 ∧
      match r with | some d => ∃ w, rs = w ++ [.data d] ∧ ∀ x ∈ w, ∀ d, x ≠ .data d | none => True) →
      post env (greetingResult r) (fun code s' => SameConn s.client s'.client ∧
      (code = 220 → ∃ evs, s'.hist = s.hist ++ evs ∧ OneReply ch 220 evs)) s1 := by
    rintro ch r s1 ⟨rs, h, h'⟩
    cases r with
    | none => exact ⟨h.1, fun h => absurd h (by decide)⟩
    | some d =>
      obtain ⟨w, e, hw⟩ := h'
      refine post_mono (greetingResult_took h e hw) ?_
      rintro code s2 ⟨h1, h2⟩
      exact ⟨h1, fun hc => by subst hc; exact h2 (by decide)⟩
  unfold checkServerGreetings post
  simp only [wp_bind, wp_gets, wp_ite]
  refine ⟨fun h => ?_, fun h => ?_⟩
  · have hk : s.client.kind = .forced := by simpa using h
    cases hb : s.client.bio with
    | some b =>
      have : hailChan s.client = .tls b.id b.fd := by
        unfold hailChan feedbackChan; rw [if_pos hk, if_neg (by rw [hk]; decide), hb]
      rw [this]
      exact post_mono (waitLoop_took (P := fun s => s.client.bio = some b) (fun h hp => (h.1.bio).trans hp)
        (fun s hs => bioRead_took s hs) _ s hb) fun r s1 h => done h
    | none =>
      refine post_mono (waitLoop_null _ s hb) ?_
      rintro r s1 ⟨rfl, h1⟩
      exact ⟨h1.1, fun h => absurd h (by decide)⟩
  · have : hailChan s.client = .raw s.client.sock := by unfold hailChan; rw [if_neg (by simpa using h)]
    rw [this]
    exact post_mono (waitLoop_took (P := fun _ => True) (fun _ _ => trivial) (fun s' _ => sysRecv_took _ s') _ s trivial) fun r s1 h => done h

/-! ### EHLO -/

theorem reply_took {m : M Int} {ch : Chan} (t v : Int) (hv : v ≠ t) (s : St) (hm : post env m (fun code s' => GotReply ch code s s') s) :
    post env (do
        let code ← m
        if code ≠ -1 then pure code
        else do
          cleanup
          pure t : M Int)
      (fun code s' => code = v → SameConn s.client s'.client ∧ ∃ evs, s'.hist = s.hist ++ evs ∧ OneReply ch v evs) s := by
  unfold post
  rw [wp_bind]
  refine post_mono hm fun code s2 ⟨h1, h2⟩ => ?_
  refine (wp_ite ..).mpr ⟨fun hne hc => ?_, fun _ => ?_⟩
  · subst hc
    exact ⟨h1, h2 hne⟩
  · rw [wp_bind]
    refine wp_mono (cleanup_after (s := s2) (Ended.refl s2)) (fun _ _ _ h => absurd h.symm hv) (fun _ _ _ => trivial)

theorem sendRaw_took (k : SendKind) (d : Bytes) (e : Int) (he : e ≠ 0) (s : St) :
    post env (sendRaw k d e) (fun code s' => code = 0 → ∃ n, s' = St.snoc s (.send k (.raw s.client.sock) (cstr d) (.sent n))) s := by
  unfold sendRaw sendRawWith post
  simp only [wp_bind, wp_gets]
  refine wp_mono (sysSend_out _ _ _ s) ?_ (fun _ _ _ => trivial)
  rintro r s1 ⟨hr, rfl⟩
  cases r with
  | never => exact absurd rfl hr
  | sent n => exact fun _ => ⟨n, rfl⟩
  | fail x =>
    dsimp only
    unfold setErrNo
    simp only [wp_bind, wp_modify, wp_pure]
    exact wp_mono (cleanup_after (Ended.refl _)) (fun _ _ _ h => absurd h he) (fun _ _ _ => trivial)

theorem sendBio_took (k : SendKind) (d : Bytes) (e : Int) (he : e ≠ 0) {b : Bio} (s : St) (hb : s.client.bio = some b) :
    post env (sendBioWith cleanup k d e) (fun code s' => code = 0 → ∃ n, s' = St.snoc s (.send k (.tls b.id b.fd) (cstr d) (.sent n))) s := by
  unfold sendBioWith post
  simp only [wp_bind, wp_gets, hb]
  refine wp_mono (sysSend_out _ _ _ s) ?_ (fun _ _ _ => trivial)
  rintro r s1 ⟨hr, rfl⟩
  cases r with
  | never => exact absurd rfl hr
  | sent n => exact fun _ => ⟨n, rfl⟩
  | fail x =>
    dsimp only
    unfold setErrNo
    simp only [wp_bind, wp_modify, wp_pure, wp_ask']
    exact wp_mono (cleanup_after (Ended.refl _)) (fun _ _ _ h => absurd h he) (fun _ _ _ => trivial)

/-- The command was sent and one reply with the code was read. -/
def Replied1 (ch : Chan) (d : Bytes) (v : Int) (s s' : St) : Prop :=
  SameConn s.client s'.client ∧ ∃ n evs, s'.hist = s.hist ++ .send .cmd ch (cstr d) (.sent n) :: evs ∧ OneReply ch v evs

theorem sendRawFb_took (d) (e t v : Int) (he : e ≠ 0) (hve : v ≠ e) (hvt : v ≠ t) (s : St) :
    post env (sendRawFb d e t) (fun code s' => code = v → Replied1 (.raw s.client.sock) d v s s') s := by
  unfold sendRawFb post
  rw [wp_bind]
  refine post_mono (sendRaw_took _ _ _ he s) fun code s1 h1 => ?_
  rw [wp_ite]
  refine ⟨fun _ h => absurd h.symm hve, fun h0 => ?_⟩
  obtain ⟨n, rfl⟩ := h1 (Decidable.not_not.mp h0)
  refine post_mono (reply_took t v hvt _ (getRawReply_took _)) fun code s2 h2 hc => ?_
  obtain ⟨a, evs, b, c⟩ := h2 hc
  exact ⟨a, n, evs, by rw [b]; simp [St.snoc], c⟩

theorem sendFb_took (d) (e t v : Int) (he : e ≠ 0) (hve : v ≠ e) (hvt : v ≠ t) (s : St) :
    post env (sendFb d e t) (fun code s' => code = v → Replied1 (feedbackChan s.client) d v s s') s := by
  unfold sendFb post
  simp only [wp_bind, wp_gets, wp_ite]
  refine ⟨fun h => ?_, fun h => ?_⟩
  · have : feedbackChan s.client = .raw s.client.sock := by
      unfold feedbackChan
      rw [Bool.or_eq_true] at h
      rcases h with h | h
      · rw [if_pos (by simpa using h)]
      · rw [Option.isNone_iff_eq_none] at h; rw [h]; split <;> rfl
    rw [this]
    exact sendRawFb_took d e t v he hve hvt s
  · simp only [Bool.not_eq_true, Bool.or_eq_false_iff, Option.isNone_eq_false_iff] at h
    obtain ⟨b, hb⟩ := Option.isSome_iff_exists.mp h.2
    have : feedbackChan s.client = .tls b.id b.fd := by unfold feedbackChan; rw [if_neg (by simpa using h.1), hb]
    rw [this]
    unfold sendTlsFb
    rw [wp_bind]
    refine post_mono (sendBio_took _ _ _ he s hb) fun code s1 h1 => ?_
    rw [wp_ite]
    refine ⟨fun _ h => absurd h.symm hve, fun h0 => ?_⟩
    obtain ⟨n, rfl⟩ := h1 (Decidable.not_not.mp h0)
    refine post_mono (reply_took t v hvt _ (tlsReply_took _ hb)) fun code s2 h2 hc => ?_
    obtain ⟨a, evs, b, c⟩ := h2 hc
    exact ⟨a, n, evs, by rw [b]; simp [St.snoc], c⟩

theorem ehloLoop_took (tc : Int) (htc : 250 ≠ tc) (n : Nat) (opts : Bytes) (s : St) :
    post env (ehloLoop tc n opts) (fun r s' => r ≠ .inl 250 ∧ ∀ o, r = .inr o → SameConn s.client s'.client ∧
      ∃ parts : List Hist, (∀ p ∈ parts, OneReply (feedbackChan s.client) 250 p) ∧ s'.hist = s.hist ++ parts.flatten) s := by
  induction n generalizing opts s with
  | zero => trivial
  | succ n ih =>
    unfold ehloLoop post
    rw [wp_ite]
    refine ⟨fun _ => ⟨nofun, fun o h => ⟨rfl, [], by simp, by simp⟩⟩, fun _ => ?_⟩
    rw [wp_bind]
    refine post_mono (getServerReply_took s) fun code s1 ⟨h1, h2⟩ => ?_
    refine (wp_ite ..).mpr ⟨fun _ => ⟨fun h => htc (Sum.inl.inj h).symm, nofun⟩, fun hc => ?_⟩
    refine (wp_ite ..).mpr ⟨fun h => ⟨fun h' => h (Sum.inl.inj h'), nofun⟩, fun hc' => ?_⟩
    obtain ⟨evs, he, hr⟩ := h2 hc
    obtain rfl : code = 250 := Decidable.not_not.mp hc'
    unfold lastResponseText
    rw [wp_bind, wp_bind, wp_gets]
    cases s1.client.lastResponse with
    | none => trivial
    | some r =>
      dsimp only
      rw [wp_pure]
      refine post_mono (ih (opts ++ b!"\n" ++ r) s1) fun x s2 ⟨g1, g2⟩ => ⟨g1, fun o ho => ?_⟩
      obtain ⟨k1, parts, k2, k3⟩ := g2 o ho
      rw [h1.feedbackChan] at k2
      refine ⟨h1.trans k1, evs :: parts, fun p hp => ?_, by rw [k3, he]; simp⟩
      rcases List.mem_cons.mp hp with rfl | hp
      · exact hr
      · exact k2 p hp

theorem identify_took (e t : Int) (he : e ≠ 0) (he' : 250 ≠ e) (ht' : 250 ≠ t) (s : St) :
    post env (identify e t) (fun code s' => code = 250 → SameConn s.client s'.client ∧
      ∃ evs, s'.hist = s.hist ++ evs ∧ EhloAccepted (feedbackChan s.client) evs) s := by
  unfold identify post
  rw [wp_bind]
  refine wp_mono (addLog_keeps _ _ s) ?_ (fun _ _ _ => trivial)
  rintro _ s1 ⟨l, e1⟩
  have c1 : SameConn s.client s1.client := by rw [e1]; rfl
  have h1 : s1.hist = s.hist := by rw [e1]
  rw [wp_bind]
  refine post_mono (sendFb_took _ e t 250 he he' ht' s1) fun code s2 h2 => ?_
  rw [wp_ite]
  refine ⟨fun h h' => absurd h' h, fun h => ?_⟩
  obtain ⟨c2, n, evs, h2, r2⟩ := h2 (Decidable.not_not.mp h)
  rw [c1.feedbackChan] at h2 r2
  unfold lastResponseText
  rw [wp_bind, wp_bind, wp_gets]
  cases s2.client.lastResponse with
  | none => trivial
  | some r =>
    dsimp only
    rw [wp_pure, wp_bind, wp_env, wp_bind]
    refine post_mono (ehloLoop_took t ht' _ r s2) ?_
    rintro x s3 ⟨g1, g2⟩
    cases x with
    | inl c => exact fun h => absurd (congrArg Sum.inl h) g1
    | inr o =>
      obtain ⟨c3, parts, g3, g4⟩ := g2 o rfl
      rw [c2.feedbackChan, c1.feedbackChan] at g3
      dsimp only
      rw [wp_bind]
      unfold setAuthOptions
      rw [wp_modifyMem, wp_pure]
      intro _
      refine ⟨((c1.trans c2).trans c3).trans rfl, _, ?_, n, evs :: parts, by simp, ?_, rfl⟩
      · show s3.hist = _
        rw [g4, h2, h1]
        have : cstr ehloCmd = b!"ehlo localhost\r\n" := by decide
        rw [this]
        simp
      · intro p hp
        rcases List.mem_cons.mp hp with rfl | hp
        · exact r2
        · exact g3 p hp

/-! ### Opening the connection -/

theorem prep_mute {h : Hist} (hp : ∀ e ∈ h, PrepEv e) : Mute h := by
  refine ⟨?_, fun e he hs => ?_⟩
  · unfold readsOf
    rw [List.filterMap_eq_nil_iff]
    intro e he
    have := hp e he
    cases e <;> simp_all [PrepEv]
  · have := hp e he
    cases e <;> simp_all [PrepEv, IsSend]

theorem Mute.append {a b : Hist} (h : Mute a) (h' : Mute b) : Mute (a ++ b) := by
  refine ⟨by rw [readsOf_append, h.1, h'.1]; rfl, fun e he => ?_⟩
  rcases List.mem_append.mp he with he | he
  · exact h.2 e he
  · exact h'.2 e he

/-! ### Authentication -/

/-- Nothing happened, or the client spoke first. -/
def Spoke (s s' : St) : Prop := ∃ evs, s'.hist = s.hist ++ evs ∧ SpeaksNext evs

theorem Spoke.same {s s' : St} (h : s'.hist = s.hist) : Spoke s s' := ⟨[], by simp [h], .inl rfl⟩

theorem authenticateIfNeeded_spoke (s : St) : post env authenticateIfNeeded (fun _ s' => Spoke s s') s := by
  have first : ∀ (d : Bytes) (s1 : St), s1.hist = s.hist → post env (sendPtrFb d (-81) (-82)) (fun _ s' => ∃ e es, IsSend e ∧ s'.hist = s.hist ++ e :: es) s1 := by
    intro d s1 h1
    refine wp_mono (sendPtrFb_hist d s1) ?_ (fun _ _ _ => trivial)
    rintro _ s2 ⟨r, evs, h2, _⟩
    exact ⟨.send .cmd (chan s1.client) (cstr d) r, evs, trivial, by rw [h2, h1]⟩
  have done : ∀ {s' : St}, (∃ e es, IsSend e ∧ s'.hist = s.hist ++ e :: es) → Spoke s s' := by
    rintro s' ⟨e, es, h1, h2⟩
    exact ⟨e :: es, h2, .inr ⟨e, es, rfl, h1⟩⟩
  have client : post env authenticateClient (fun _ s' => Spoke s s') s := by
    unfold authenticateClient post
    rw [wp_bind, wp_gets]
    cases s.client.credential with
    | none => exact .same rfl
    | some c =>
      dsimp only
      rw [wp_bind, wp_gets]
      cases s.client.authOptions with
      | none => trivial
      | some o =>
        dsimp only
        simp only [wp_ite]
        refine ⟨fun _ => ?_, fun _ => ⟨fun _ => ?_, fun _ => ⟨fun _ => ?_, fun _ => .same rfl⟩⟩⟩
        · unfold authPlainM
          rw [wp_bind]
          refine wp_mono (addLog_keeps _ _ s) ?_ (fun _ _ _ => trivial)
          rintro _ s1 ⟨l, e1⟩
          exact post_mono (first _ s1 (by rw [e1])) fun _ _ h => done h
        · unfold authLoginM
          rw [wp_bind]
          refine wp_mono (addLog_keeps _ _ s) ?_ (fun _ _ _ => trivial)
          rintro _ s1 ⟨l, e1⟩
          rw [wp_bind]
          refine post_mono (first _ s1 (by rw [e1])) fun a s2 h => ?_
          have hs : Steps env Ext (if a ≠ 334 then pure (-81) else do
              if (← sendPtrFb (authLoginLine c.username) (-81) (-82)) ≠ 334 then pure (-81)
              else sendPtrFb (authLoginLine c.password) (-81) (-82) : M Int) := by
            steps [sendPtrFb_steps']
          refine post_mono (post_steps hs s2) fun _ s3 h3 => ?_
          obtain ⟨x, hx⟩ := h3
          obtain ⟨e, es, h1, h2⟩ := h
          exact done ⟨e, es ++ x, h1, by rw [hx, h2]; simp⟩
        · unfold authXOAuth2M
          rw [wp_bind]
          refine wp_mono (addLog_keeps _ _ s) ?_ (fun _ _ _ => trivial)
          rintro _ s1 ⟨l, e1⟩
          exact post_mono (first _ s1 (by rw [e1])) fun _ _ h => done h
  unfold authenticateIfNeeded post
  rw [wp_bind, wp_gets, wp_ite]
  refine ⟨fun _ => ?_, fun _ => .same rfl⟩
  rw [wp_bind]
  refine post_mono client fun code s1 h1 => ?_
  rw [wp_ite]
  exact ⟨fun _ => h1, fun _ => h1⟩

end Verif.Proofs
