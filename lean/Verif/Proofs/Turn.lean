import Verif.Proofs.First
import Verif.Proofs.Reply
import Verif.Proofs.Address
import Verif.Props.Reply
import Verif.Spec.Trace
/-!
# What one command does
-/
namespace Verif.Proofs
open Verif Verif.Model Verif.Spec

variable {α : Type} {env : Env}

/-! ### Observers -/

theorem heard_append (a b : Hist) : heard (a ++ b) = heard a ++ heard b := List.flatMap_append
theorem heard_cons (e : Ev) (h : Hist) : heard (e :: h) = hear e ++ heard h := List.flatMap_cons

/-- Events that say nothing and hear nothing. -/
def DeafEv : Ev → Prop
  | .fcntlGet _ _ => True
  | .fcntlSet _ _ _ => True
  | .select _ _ => True
  | .sockopt _ _ => True
  | .resolve _ _ => True
  | .connect _ _ _ => True
  | .readFile _ _ => True
  | .sleep => True
  | _ => False

/-- Events that say nothing. -/
def QuietEv : Ev → Prop
  | .recv _ _ => True
  | e => DeafEv e

theorem deaf_quiet {e : Ev} (h : DeafEv e) : QuietEv e := by cases e <;> simp_all [QuietEv, DeafEv]

theorem heard_deaf {h : Hist} (hd : ∀ e ∈ h, DeafEv e) : heard h = [] := by
  rw [heard, List.flatMap_eq_nil_iff]
  intro e he
  have := hd e he
  cases e <;> simp_all [DeafEv, hear]

theorem talk_cons (e : Ev) (h : Hist) : talk (e :: h) = talkStep e (talk h) := rfl

theorem talkStep_quiet {e : Ev} (h : QuietEv e) (x : Bytes × List Item) : talkStep e x = (hear e ++ x.1, x.2) := by
  cases e <;> simp_all [QuietEv, DeafEv, talkStep]

theorem talk_quiet_append {h : Hist} (hq : ∀ e ∈ h, QuietEv e) (b : Hist) : talk (h ++ b) = (heard h ++ (talk b).1, (talk b).2) := by
  induction h with
  | nil => rfl
  | cons e h ih =>
    rw [List.cons_append, talk_cons, ih fun e he => hq e (by simp [he]), talkStep_quiet (hq e (by simp)), heard_cons]
    simp

theorem talk_quiet {h : Hist} (hq : ∀ e ∈ h, QuietEv e) : talk h = (heard h, []) := by
  have := talk_quiet_append hq []
  simpa [talk] using this

theorem talkStep_append (e : Ev) (t : Bytes) (x y : List Item) :
    talkStep e (t, x ++ y) = ((talkStep e (t, x)).1, (talkStep e (t, x)).2 ++ y) := by
  unfold talkStep
  split <;> simp_all

theorem talk_append {a b : Hist} (hb : (talk b).1 = []) : talk (a ++ b) = ((talk a).1, (talk a).2 ++ (talk b).2) := by
  induction a with
  | nil => show talk b = ([], [] ++ (talk b).2); rw [← hb]; rfl
  | cons e a ih => rw [List.cons_append, talk_cons, ih, talkStep_append, talk_cons]

/-! ### Relations -/

/-- Only the record of the session was changed: log, last error, last response, offered mechanisms. -/
def SameConn (c c' : Client) : Prop :=
  c' = { c with log := c'.log, lastErrNo := c'.lastErrNo, lastResponse := c'.lastResponse, authOptions := c'.authOptions }

theorem SameConn.refl (c : Client) : SameConn c c := rfl
theorem SameConn.trans {a b c : Client} (h : SameConn a b) (h' : SameConn b c) : SameConn a c := by
  unfold SameConn at *; rw [h'] ; rw [h]

/-- Some time passed: nothing said, nothing heard. -/
def Deaf (s s' : St) : Prop := SameConn s.client s'.client ∧ NewEvents DeafEv s s'
/-- Nothing said. -/
def Quiet (s s' : St) : Prop := SameConn s.client s'.client ∧ NewEvents QuietEv s s'

theorem NewEvents.mono {P Q : Ev → Prop} {s s' : St} (h : NewEvents P s s') (hPQ : ∀ e, P e → Q e) : NewEvents Q s s' := by
  obtain ⟨evs, h1, h2⟩ := h
  exact ⟨evs, h1, fun e he => hPQ e (h2 e he)⟩

instance : Sleeping Deaf where
  refl := fun _ => ⟨rfl, .same rfl⟩
  trans := fun h h' => ⟨h.1.trans h'.1, h.2.trans h'.2⟩
  log := fun _ _ _ _ _ _ _ => ⟨rfl, .same rfl⟩
  errno := fun _ _ => ⟨rfl, .same rfl⟩
  resp := fun _ _ => ⟨rfl, .same rfl⟩
  auth := fun _ _ => ⟨rfl, .same rfl⟩
  fcntlGet := fun _ _ _ => ⟨rfl, .one trivial⟩
  fcntlSet := fun _ _ _ _ => ⟨rfl, .one trivial⟩
  select := fun _ _ _ => ⟨rfl, .one trivial⟩
  sockopt := fun _ _ _ => ⟨rfl, .one trivial⟩
  resolve := fun _ _ _ => ⟨rfl, .one trivial⟩
  connect := fun _ _ _ _ => ⟨rfl, .one trivial⟩
  sleep := fun _ => ⟨rfl, .one trivial⟩

instance : Filing Deaf where
  readFile := fun _ _ _ => ⟨rfl, .one trivial⟩

instance : Reading Quiet where
  refl := fun _ => ⟨rfl, .same rfl⟩
  trans := fun h h' => ⟨h.1.trans h'.1, h.2.trans h'.2⟩
  log := fun _ _ _ _ _ _ _ => ⟨rfl, .same rfl⟩
  errno := fun _ _ => ⟨rfl, .same rfl⟩
  resp := fun _ _ => ⟨rfl, .same rfl⟩
  auth := fun _ _ => ⟨rfl, .same rfl⟩
  fcntlGet := fun _ _ _ => ⟨rfl, .one trivial⟩
  fcntlSet := fun _ _ _ _ => ⟨rfl, .one trivial⟩
  select := fun _ _ _ => ⟨rfl, .one trivial⟩
  sockopt := fun _ _ _ => ⟨rfl, .one trivial⟩
  resolve := fun _ _ _ => ⟨rfl, .one trivial⟩
  connect := fun _ _ _ _ => ⟨rfl, .one trivial⟩
  sleep := fun _ => ⟨rfl, .one trivial⟩
  recv := fun _ _ _ => ⟨rfl, .one trivial⟩

instance : Filing Quiet where
  readFile := fun _ _ _ => ⟨rfl, .one trivial⟩

/-- Nothing said, and this was heard. -/
def Heard (t : Bytes) (s s' : St) : Prop :=
  SameConn s.client s'.client ∧ ∃ evs, s'.hist = s.hist ++ evs ∧ (∀ e ∈ evs, QuietEv e) ∧ heard evs = t

theorem Deaf.heard {s s' : St} (h : Deaf s s') : Heard [] s s' := by
  obtain ⟨hc, evs, h1, h2⟩ := h
  exact ⟨hc, evs, h1, fun e he => deaf_quiet (h2 e he), heard_deaf h2⟩

theorem Heard.trans {t u : Bytes} {a b c : St} (h : Heard t a b) (h' : Heard u b c) : Heard (t ++ u) a c := by
  obtain ⟨hc, x, hx, qx, tx⟩ := h
  obtain ⟨hc', y, hy, qy, ty⟩ := h'
  refine ⟨hc.trans hc', x ++ y, by rw [hy, hx, List.append_assoc], ?_, by rw [heard_append, tx, ty]⟩
  intro e he
  rcases List.mem_append.mp he with he | he
  · exact qx e he
  · exact qy e he

theorem Heard.then_deaf {t : Bytes} {a b c : St} (h : Heard t a b) (h' : Deaf b c) : Heard t a c := by
  have := h.trans h'.heard; rwa [List.append_nil] at this
theorem Deaf.then_heard {t : Bytes} {a b c : St} (h : Deaf a b) (h' : Heard t b c) : Heard t a c := h.heard.trans h'

theorem Heard.quiet {t : Bytes} {s s' : St} (h : Heard t s s') : Quiet s s' := by
  obtain ⟨hc, evs, h1, h2, _⟩ := h
  exact ⟨hc, evs, h1, h2⟩

/-! ### Reading a reply -/

theorem sysRecv_heard (ch : Chan) (s : St) :
    wp env (sysRecv ch) (fun r s' => match r with | .data d => Heard (upToNul d) s s' | _ => Heard [] s s') (fun _ => Quiet s) s := by
  unfold sysRecv
  simp only [wp_bind, wp_ask, wp_ite, wp_stop, wp_pure]
  refine ⟨fun h => ⟨rfl, _, rfl, by simp [QuietEv]⟩, fun h => ?_⟩
  split
  · rename_i d hd
    refine ⟨rfl, _, rfl, by simp [QuietEv], ?_⟩
    rw [hd]; simp [heard, hear]
  · rename_i hd
    refine ⟨rfl, _, rfl, by simp [QuietEv], ?_⟩
    simp only [heard, List.flatMap_cons, List.flatMap_nil, List.append_nil]
    unfold hear
    split
    · rename_i h1; simp at h1; exact absurd h1.2 (hd _)
    · rfl

theorem cstr_upToNul (d : Bytes) : cstr d = upToNul d := rfl

theorem rawReplyLoop_heard (n w acc got) (s : St) :
    wp env (rawReplyLoop n w acc got) (fun r s' => ∃ t, r.2.1 = acc ++ t ∧ Heard t s s') (fun _ => Quiet s) s := by
  induction n generalizing w acc got s with
  | zero => exact Preord.refl (R := Quiet) s
  | succ n ih =>
    unfold rawReplyLoop
    simp only [wp_bind, wp_gets]
    refine wp_mono (sysRecv_heard _ s) (fun r s1 h => ?_) (fun _ _ h => h)
    split
    · rename_i d
      dsimp only at h
      rw [wp_ite]
      refine ⟨fun _ => h.quiet, fun _ => ?_⟩
      rw [wp_ite]
      refine ⟨fun _ => ?_, fun _ => ⟨_, rfl, by rw [cstr_upToNul]; exact h⟩⟩
      refine wp_mono (ih w (acc ++ cstr d) true s1) ?_ (fun _ _ h' => Preord.trans (R := Quiet) h.quiet h')
      rintro r s2 ⟨t, e, h2⟩
      exact ⟨upToNul d ++ t, by rw [e, cstr_upToNul, List.append_assoc], h.trans h2⟩
    · rename_i hr
      have h : Heard [] s s1 := by
        split at h
        · exact absurd rfl (hr _)
        · exact h
      rw [wp_ite]
      refine ⟨fun _ => ⟨[], by simp, h⟩, fun _ => ?_⟩
      rw [wp_bind]
      unfold sysSleep
      rw [wp_emit]
      have hs : Heard [] s { s1 with hist := s1.hist ++ [.sleep] } :=
        h.then_deaf (Sleeping.sleep (R := Deaf) s1)
      rw [wp_ite]
      refine ⟨fun _ => ?_, fun _ => ⟨[], by simp, hs⟩⟩
      refine wp_mono (ih (w + 1) acc got _) ?_ (fun _ _ h' => Preord.trans (R := Quiet) hs.quiet h')
      rintro r s2 ⟨t, e, h2⟩
      exact ⟨t, e, by have := hs.trans h2; rwa [List.nil_append] at this⟩

/-- The result of waiting for a reply: nothing usable, or the code of the text that was read. -/
def GotCode (s : St) (code : Int) (s' : St) : Prop := ∃ t, Heard t s s' ∧ (code = -1 ∨ ReplyCode t code)

theorem GotCode.quiet {s s' : St} {code : Int} (h : GotCode s code s') : Quiet s s' := by
  obtain ⟨t, h, _⟩ := h; exact h.quiet

theorem extract_code (t : Bytes) : extractReturnCode (some t) = -1 ∨ ReplyCode (cstr t) (extractReturnCode (some t)) := by
  rcases Props.C06_code_of_any_text t with h | h
  · exact .inr h
  · exact .inl h.2

theorem upToNul_upToNul (d : Bytes) : upToNul (upToNul d) = upToNul d := by
  rw [← cstr_upToNul, ← cstr_upToNul]; exact cstr_cstr d

theorem heard_no_nul (h : Hist) : 0 ∉ heard h := by
  rw [heard, List.mem_flatMap]
  rintro ⟨e, _, he⟩
  unfold hear at he
  split at he
  · rename_i d _
    have := List.all_takeWhile (p := fun x : UInt8 => decide (x ≠ 0)) (l := d)
    rw [List.all_eq_true] at this
    simpa using this 0 he
  · simp at he

theorem Heard.no_nul {t : Bytes} {s s' : St} (h : Heard t s s') : cstr t = t := by
  obtain ⟨_, evs, _, _, rfl⟩ := h
  exact cstr_eq_self (heard_no_nul evs)

theorem getRawReply_code (s : St) : wp env getRawReply (fun code s' => GotCode s code s') (fun _ => Quiet s) s := by
  have toQuiet : ∀ {a b : St}, Deaf a b → Quiet a b := fun h => h.heard.quiet
  unfold getRawReply
  rw [wp_bind]
  refine wp_mono (setNonBlocking_steps (R := Deaf).run s) (fun _ s1 h1 => ?_) (fun _ _ h => toQuiet h)
  simp only [wp_bind, wp_env]
  refine wp_mono (rawReplyLoop_heard _ _ _ _ s1) ?_ (fun _ _ h => Preord.trans (R := Quiet) (toQuiet h1) h)
  rintro ⟨w, acc, got⟩ s2 ⟨t, ht, h2⟩
  rw [List.nil_append] at ht
  dsimp only at ht
  subst ht
  have h2 : Heard acc s s2 := h1.then_heard h2
  dsimp only
  refine wp_mono (setBlocking_steps (R := Deaf).run s2) (fun _ s3 h3 => ?_) (fun _ _ h => Preord.trans (R := Quiet) h2.quiet (toQuiet h))
  have h3 : Heard acc s s3 := h2.then_deaf h3
  simp only [wp_gets, wp_ite, wp_bind, wp_pure]
  refine ⟨fun _ => ?_, fun _ => ⟨acc, h3, .inl rfl⟩⟩
  refine wp_mono (setLastServerResponse_steps (R := Deaf) _ |>.run s3) (fun _ s4 h4 => ?_) (fun _ _ h => Preord.trans (R := Quiet) h3.quiet (toQuiet h))
  refine wp_mono (addLog_steps (R := Deaf) _ _ |>.run s4) (fun _ s5 h5 => ?_)
    (fun _ _ h => Preord.trans (R := Quiet) (h3.then_deaf h4).quiet (toQuiet h))
  have h5 : Heard acc s s5 := (h3.then_deaf h4).then_deaf h5
  refine ⟨acc, h5, ?_⟩
  have := extract_code acc
  rwa [h5.no_nul] at this

theorem bioRead_heard (s : St) :
    wp env bioRead (fun r s' => match r with | .data d => Heard (upToNul d) s s' | _ => Heard [] s s') (fun _ => Quiet s) s := by
  unfold bioRead
  rw [wp_bind, wp_gets]
  split
  · exact (Preord.refl (R := Deaf) s).heard
  · exact sysRecv_heard _ s

theorem waitLoop_heard {read : M RecvRes} (hr : ∀ s, wp env read
      (fun r s' => match r with | .data d => Heard (upToNul d) s s' | _ => Heard [] s s') (fun _ => Quiet s) s) (n) (s : St) :
    wp env (waitLoop read n) (fun r s' => match r with | some d => Heard (upToNul d) s s' | none => Quiet s s') (fun _ => Quiet s) s := by
  induction n generalizing s with
  | zero =>
    unfold waitLoop
    rw [wp_bind]
    refine wp_mono (hr s) (fun r s1 h => ?_) (fun _ _ h => h)
    rw [wp_pure]
    dsimp only
    split at h <;> exact h.quiet
  | succ n ih =>
    unfold waitLoop
    rw [wp_bind]
    refine wp_mono (hr s) (fun r s1 h => ?_) (fun _ _ h => h)
    split
    · exact h
    · rename_i hd
      have h : Heard [] s s1 := by
        split at h
        · exact absurd rfl (hd _)
        · exact h
      rw [wp_bind]
      unfold sysSleep
      rw [wp_emit]
      have hs : Heard [] s { s1 with hist := s1.hist ++ [.sleep] } := h.then_deaf (Sleeping.sleep (R := Deaf) s1)
      refine wp_mono (ih _) (fun r s2 h2 => ?_) (fun _ _ h' => Preord.trans (R := Quiet) hs.quiet h')
      split at h2
      · exact hs.trans h2
      · exact Preord.trans (R := Quiet) hs.quiet h2

theorem bufferText_prefix (d : Bytes) : bufferText d <+: upToNul d := by
  unfold bufferText
  rw [cstr_upToNul]
  by_cases hd : d = []
  · subst hd; simp [upToNul]
  · have e := List.dropLast_concat_getLast hd
    conv => rhs; rw [← e]
    unfold upToNul
    rw [List.takeWhile_append]
    split
    · rename_i h
      rw [(List.takeWhile_sublist _).eq_of_length h]
      exact List.prefix_append _ _
    · exact List.prefix_refl _

theorem replyCode_prefix {a b : Bytes} (h : a <+: b) {code : Int} (hc : ReplyCode a code) : ReplyCode b code := by
  obtain ⟨x, rfl⟩ := h
  refine ⟨by have := hc.1; simp; omega, ?_⟩
  rw [List.take_append_of_le_length hc.1]
  exact hc.2

theorem buffer_code (d : Bytes) :
    extractReturnCode (some (bufferText d)) = -1 ∨ ReplyCode (upToNul d) (extractReturnCode (some (bufferText d))) := by
  rcases extract_code (bufferText d) with h | h
  · exact .inl h
  · right
    refine replyCode_prefix (bufferText_prefix d) ?_
    have : cstr (bufferText d) = bufferText d := upToNul_upToNul _
    rwa [this] at h

theorem quiet_heard {s s' : St} (h : Quiet s s') : ∃ t, Heard t s s' := by
  obtain ⟨hc, evs, h1, h2⟩ := h
  exact ⟨_, hc, evs, h1, h2, rfl⟩

theorem getTlsReply_code (s : St) : wp env getTlsReply (fun code s' => GotCode s code s') (fun _ => Quiet s) s := by
  have toQuiet : ∀ {a b : St}, Deaf a b → Quiet a b := fun h => h.heard.quiet
  unfold getTlsReply
  simp only [wp_bind, wp_gets]
  refine wp_mono (waitLoop_heard bioRead_heard _ s) (fun r s1 h => ?_) (fun _ _ h => h)
  split
  · rename_i d
    dsimp only at h
    rw [wp_bind]
    refine wp_mono (setLastServerResponse_steps (R := Deaf) _ |>.run s1) (fun _ s4 h4 => ?_)
      (fun _ _ h' => Preord.trans (R := Quiet) h.quiet (toQuiet h'))
    rw [wp_bind]
    refine wp_mono (addLog_steps (R := Deaf) _ _ |>.run s4) (fun _ s5 h5 => ?_)
      (fun _ _ h' => Preord.trans (R := Quiet) (h.then_deaf h4).quiet (toQuiet h'))
    exact ⟨_, (h.then_deaf h4).then_deaf h5, buffer_code d⟩
  · obtain ⟨t, ht⟩ := quiet_heard h
    exact ⟨t, ht, .inl rfl⟩

end Verif.Proofs
