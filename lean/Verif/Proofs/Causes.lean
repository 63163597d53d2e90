import Verif.Proofs.Waits
import Verif.Proofs.Deliver
import Verif.Proofs.Said
import Verif.Spec.Causes
import Verif.Props.Base64
/-!
# What an error code tells
-/
namespace Verif.Proofs
open Verif Verif.Model Verif.Spec

variable {env : Env}

/-! ### Closing -/

/-- The session was only closed. -/
def OnlyCloses (s s' : St) : Prop := s'.client.timeout = s.client.timeout ∧ s'.client.kind = s.client.kind ∧ NewEvents IsClosing s s'

theorem OnlyCloses.trans {a b c : St} (h : OnlyCloses a b) (h' : OnlyCloses b c) : OnlyCloses a c := ⟨h'.1.trans h.1, h'.2.1.trans h.2.1, h.2.2.trans h'.2.2⟩

instance : Preord OnlyCloses where
  refl := fun _ => ⟨rfl, rfl, .same rfl⟩
  trans := .trans

theorem addLog_shut (i p : Bytes) : Steps env OnlyCloses (addLog i p) := by
  constructor
  intro s
  unfold addLog
  rw [wp_bind, wp_gets]
  cases hl : s.client.log with
  | none => exact Preord.refl (R := OnlyCloses) s
  | some l =>
    cases ha : l.add i p with
    | error u => simp only [ha]; exact Preord.refl (R := OnlyCloses) s
    | ok l' => simp only [ha]; exact ⟨rfl, rfl, .same rfl⟩

theorem setErrNo_shut (e : Int) : Steps env OnlyCloses (setErrNo e) := .modify fun _ => ⟨rfl, rfl, .same rfl⟩

theorem sysSend_shut (ch : Chan) (d : Bytes) : Steps env OnlyCloses (sysSend .quit ch d) := by
  unfold sysSend
  refine .bind (.ask fun s r => ⟨rfl, rfl, .one trivial⟩) fun r => ?_
  steps []

theorem closeSession_shut : Steps env OnlyCloses closeSession := by
  have m : ∀ f : Client → Client, (∀ c, (f c).timeout = c.timeout ∧ (f c).kind = c.kind) → Steps env OnlyCloses (M.modify f) :=
    fun f h => .modify fun s => ⟨(h _).1, (h _).2, .same rfl⟩
  have hs : Steps env OnlyCloses closeSocket := by
    unfold closeSocket sysClose
    refine .bind (.gets _) fun sock => .ite (.bind (.emit fun s => ⟨rfl, rfl, .one trivial⟩) fun _ => m _ fun _ => ⟨rfl, rfl⟩) (m _ fun _ => ⟨rfl, rfl⟩)
  unfold closeSession freeTls
  refine .bind (m _ fun _ => ⟨rfl, rfl⟩) fun _ => .bind (.gets _) fun k => .ite hs (.bind ?_ fun _ => hs)
  refine .bind (m _ fun _ => ⟨rfl, rfl⟩) fun _ => .bind (.gets _) fun b => .bind ?_ fun _ => m _ fun _ => ⟨rfl, rfl⟩
  unfold emitBioFree
  cases b with
  | none => exact .pure _
  | some b => exact .emit fun s => ⟨rfl, rfl, .one trivial⟩

theorem sendQuitWith_shut {c : M Unit} (hc : Steps env OnlyCloses c) : Steps env OnlyCloses (sendQuitWith c) := by
  unfold sendQuitWith sendPtrWith sendRawWith sendBioWith
  steps [addLog_shut, setErrNo_shut, sysSend_shut, hc]

theorem cleanup_shut : Steps env OnlyCloses cleanup := by
  have key : ∀ n, Steps env OnlyCloses (cleanupN n) := by
    intro n
    induction n with
    | zero => exact .stop _
    | succ n ih =>
      unfold cleanupN
      steps [sendQuitWith_shut, closeSession_shut]
  unfold cleanup
  exact .bind (.env' _) fun n => key n

/-! ### Sending -/

/-- There is something to send on. -/
def CanSend (c : Client) : Prop := (c.ptrRaw || c.kind == .smtp) = true ∨ c.bio ≠ none

theorem CanSend.same {c c' : Client} (h : CanSend c) (h' : SameConn c c') : CanSend c' := by
  unfold SameConn at h'; rw [h']; exact h

/-- The result of sending. -/
inductive PtrOut (k : SendKind) (d : Bytes) (e : Int) (s s' : St) : Int → Prop
  | sent (ch : Chan) (n : Nat) : CanSend s.client → s' = St.snoc s (.send k ch (cstr d) (.sent n)) → PtrOut k d e s s' 0
  | failed (ch : Chan) (n : Int) : OnlyCloses (St.snoc s (.send k ch (cstr d) (.fail n))) s' → PtrOut k d e s s' e
  | nowhere : ¬ CanSend s.client → OnlyCloses s s' → PtrOut k d e s s' e

theorem sendRaw_ptr (k d e) (s : St) (hc : CanSend s.client) : wp env (sendRaw k d e) (fun code s' => PtrOut k d e s s' code) (fun _ _ => True) s := by
  unfold sendRaw sendRawWith
  simp only [wp_bind, wp_gets]
  refine wp_mono (sysSend_out _ _ _ s) ?_ (fun _ _ _ => trivial)
  rintro r s1 ⟨hr, rfl⟩
  cases r with
  | never => exact absurd rfl hr
  | sent n => exact .sent _ n hc rfl
  | fail n =>
    dsimp only
    simp only [wp_bind]
    refine wp_mono ((setErrNo_shut n).run _) (fun _ s1 h1 => ?_) (fun _ _ _ => trivial)
    exact wp_mono (cleanup_shut.run s1) (fun _ s2 h2 => .failed _ n (h1.trans h2)) (fun _ _ _ => trivial)

theorem sendBio_ptr (k d e) (s : St) (hc : (s.client.ptrRaw || s.client.kind == .smtp) = false) :
    wp env (sendBioWith cleanup k d e) (fun code s' => PtrOut k d e s s' code) (fun _ _ => True) s := by
  unfold sendBioWith
  simp only [wp_bind, wp_gets]
  cases hb : s.client.bio with
  | none =>
    dsimp only
    simp only [wp_bind, wp_ask']
    refine wp_mono ((setErrNo_shut _).run s) (fun _ s1 h1 => ?_) (fun _ _ _ => trivial)
    refine wp_mono (cleanup_shut.run s1) (fun _ s2 h2 => ?_) (fun _ _ _ => trivial)
    refine .nowhere ?_ (h1.trans h2)
    rintro (h | h)
    · rw [hc] at h; cases h
    · exact h hb
  | some b =>
    dsimp only
    simp only [wp_bind]
    refine wp_mono (sysSend_out _ _ _ s) ?_ (fun _ _ _ => trivial)
    rintro r s1 ⟨hr, rfl⟩
    cases r with
    | never => exact absurd rfl hr
    | sent n => exact .sent _ n (.inr (by rw [hb]; simp)) rfl
    | fail n =>
      dsimp only
      simp only [wp_bind, wp_ask']
      refine wp_mono ((setErrNo_shut _).run _) (fun _ s1 h1 => ?_) (fun _ _ _ => trivial)
      exact wp_mono (cleanup_shut.run s1) (fun _ s2 h2 => .failed _ n (h1.trans h2)) (fun _ _ _ => trivial)

theorem sendPtr_ptr (k d e) (s : St) : wp env (sendPtr k d e) (fun code s' => PtrOut k d e s s' code) (fun _ _ => True) s := by
  unfold sendPtr sendPtrWith
  simp only [wp_bind, wp_gets, wp_ite]
  cases hc : (s.client.ptrRaw || s.client.kind == .smtp)
  · exact ⟨fun h => by simp at h, fun _ => sendBio_ptr k d e s hc⟩
  · exact ⟨fun _ => sendRaw_ptr k d e s (.inl hc), fun h => by simp at h⟩

/-! ### Replies -/

/-- What waiting for a reply gives: -1 after waiting in vain, or the code of what was read. -/
inductive Answer (T : Nat) (h : Hist) : Int → Prop
  | none : InVain T h → Answer T h (-1)
  | text (t : Bytes) : 0 < dataReads h → ReadAs h t → 0 ∉ t → Answer T h (extractReturnCode (some t))

/-- Waiting for a reply. -/
def Awaited (s s' : St) (code : Int) : Prop :=
  SameConn s.client s'.client ∧ ∃ evs, s'.hist = s.hist ++ evs ∧ (∀ e ∈ evs, ¬ IsSend e) ∧ Answer s.client.timeout evs code

theorem quiet_unsaid {e : Ev} (h : QuietEv e) : ¬ IsSend e := by cases e <;> simp_all [QuietEv, DeafEv, IsSend]

theorem silent_of_reads {h : Hist} (hd : dataReads h = 0) : ∀ a b, h = a ++ .sleep :: b → ∀ ch d, .recv ch (.data d) ∉ a := by
  rintro a b rfl ch d hm
  unfold dataReads at hd
  rw [List.countP_eq_zero] at hd
  exact hd (.recv ch (.data d)) (by simp [hm]) rfl

theorem dataReads_deaf {h : Hist} (hd : ∀ e ∈ h, DeafEv e) : dataReads h = 0 := by
  unfold dataReads
  rw [List.countP_eq_zero]
  intro e he
  have := hd e he
  cases e <;> simp_all [DeafEv]

theorem upToNul_no_nul (d : Bytes) : 0 ∉ upToNul d := by
  rw [← cstr_upToNul]; exact cstr_no_nul d

theorem getRawReply_awaited (s : St) : wp env getRawReply (fun code s' => Awaited s s' code) (fun _ _ => True) s := by
  unfold getRawReply
  rw [wp_bind]
  refine wp_mono (setNonBlocking_steps (R := Deaf).run s) (fun _ s1 h1 => ?_) (fun _ _ _ => trivial)
  simp only [wp_bind, wp_env]
  refine wp_mono (wp_and (rawReplyLoop_heard _ _ _ _ s1) (rawReplyLoop_wait _ _ _ _ s1)) ?_ (fun _ _ _ => trivial)
  rintro ⟨w, acc, got⟩ s2 ⟨⟨t, ht, h2⟩, evs2, e2, -, hw, -, hg, hor⟩
  rw [List.nil_append] at ht
  dsimp only at ht hw hg hor
  subst ht
  dsimp only
  refine wp_mono (setBlocking_steps (R := Deaf).run s2) (fun _ s3 h3 => ?_) (fun _ _ _ => trivial)
  simp only [wp_gets, wp_ite, wp_bind, wp_pure]
  obtain ⟨c1, x1, hx1, d1⟩ := h1
  obtain ⟨c2, x2, hx2, q2, t2⟩ := h2
  obtain ⟨c3, x3, hx3, d3⟩ := h3
  have : evs2 = x2 := by
    rw [e2] at hx2
    exact List.append_cancel_left hx2
  subst this
  have hc : SameConn s.client s3.client := (c1.trans c2).trans c3
  have ht : s3.client.timeout = s.client.timeout := by unfold SameConn at hc; rw [hc]
  have ht1 : s1.client.timeout = s.client.timeout := by unfold SameConn at c1; rw [c1]
  have hh : s3.hist = s.hist ++ (x1 ++ evs2 ++ x3) := by rw [hx3, hx2, hx1]; simp
  have hu : ∀ e ∈ x1 ++ evs2 ++ x3, ¬ IsSend e := by
    intro e he
    simp only [List.mem_append] at he
    rcases he with (he | he) | he
    · exact quiet_unsaid (deaf_quiet (d1 e he))
    · exact quiet_unsaid (q2 e he)
    · exact quiet_unsaid (deaf_quiet (d3 e he))
  have hd : dataReads (x1 ++ evs2 ++ x3) = dataReads evs2 := by
    rw [dataReads_append, dataReads_append, dataReads_deaf d1, dataReads_deaf d3]; omega
  refine ⟨fun hyes => ?_, fun hno => ?_⟩
  · have hgot : 0 < dataReads evs2 := by
      rcases hyes with h | h
      · rcases hor with h' | h'
        · omega
        · simpa using hg.mp h'
      · simpa using hg.mp h
    refine wp_mono (setLastServerResponse_steps (R := Deaf) _ |>.run s3) (fun _ s4 h4 => ?_) (fun _ _ _ => trivial)
    refine wp_mono (addLog_steps (R := Deaf) _ _ |>.run s4) (fun _ s5 h5 => ?_) (fun _ _ _ => trivial)
    obtain ⟨c4, x4, hx4, d4⟩ := h4
    obtain ⟨c5, x5, hx5, d5⟩ := h5
    refine ⟨(hc.trans c4).trans c5, x1 ++ evs2 ++ x3 ++ (x4 ++ x5), by rw [hx5, hx4, hh]; simp, ?_, ?_⟩
    · intro e he
      simp only [List.mem_append] at he
      rcases he with he | he | he
      · exact hu e (by simpa only [List.mem_append] using he)
      · exact quiet_unsaid (deaf_quiet (d4 e he))
      · exact quiet_unsaid (deaf_quiet (d5 e he))
    · refine .text _ (by rw [dataReads_append, hd]; omega) (.inl ?_) ?_
      · rw [heard_append, heard_append, heard_append, heard_append, heard_deaf d1, heard_deaf d3, heard_deaf d4, heard_deaf d5, t2]
        simp
      · rw [← t2]; exact heard_no_nul _
  · have hz : dataReads evs2 = 0 := by
      have : got ≠ true := fun h => hno (.inr h)
      have := mt hg.mpr this
      simp at this
      omega
    refine ⟨hc, _, hh, hu, .none ⟨hu, ?_, silent_of_reads (by rw [hd, hz])⟩⟩
    have : s.client.timeout ≤ w := by
      rcases Nat.lt_or_ge w s3.client.timeout with h | h
      · exact absurd (.inl h) hno
      · omega
    rw [sleeps_append, sleeps_append]
    omega

/-- The reading loop. -/
theorem waitLoop_awaited {read : M RecvRes} (hr : ∀ s, wp env read
      (fun r s' => SameConn s.client s'.client ∧ ∃ evs, s'.hist = s.hist ++ evs ∧ ((∃ ch, evs = [.recv ch r]) ∨ evs = [] ∧ r = .err)) (fun _ _ => True) s) (n) (s : St) :
    wp env (waitLoop read n) (fun r s' => SameConn s.client s'.client ∧ ∃ evs, s'.hist = s.hist ++ evs ∧ (∀ e ∈ evs, ¬ IsSend e) ∧
      (match r with | some d => ∃ ch, .recv ch (.data d) ∈ evs | none => InVain n evs)) (fun _ _ => True) s := by
  induction n generalizing s with
  | zero =>
    unfold waitLoop
    rw [wp_bind]
    refine wp_mono (hr s) ?_ (fun _ _ h => h)
    rintro r s1 ⟨hc, evs, he, hs⟩
    have hu : ∀ e ∈ evs, ¬ IsSend e := by
      rcases hs with ⟨ch, rfl⟩ | ⟨rfl, -⟩ <;> simp [IsSend]
    refine ⟨hc, evs, he, hu, hu, Nat.zero_le _, ?_⟩
    rintro a b rfl ch d hm
    rcases hs with ⟨c, h⟩ | ⟨h, -⟩
    · cases a with
      | nil => simp at h
      | cons x a => simp at h
    · simp at h
  | succ n ih =>
    unfold waitLoop
    rw [wp_bind]
    refine wp_mono (hr s) ?_ (fun _ _ h => h)
    rintro r s1 ⟨hc, evs, he, hs⟩
    have hu : ∀ e ∈ evs, ¬ IsSend e := by
      rcases hs with ⟨ch, rfl⟩ | ⟨rfl, -⟩ <;> simp [IsSend]
    have rest : (∀ d, r ≠ .data d) → wp env (do sysSleep; waitLoop read n : M (Option Bytes)) (fun r s' => SameConn s.client s'.client ∧
        ∃ evs, s'.hist = s.hist ++ evs ∧ (∀ e ∈ evs, ¬ IsSend e) ∧
          (match r with | some d => ∃ ch, .recv ch (.data d) ∈ evs | none => InVain (n + 1) evs)) (fun _ _ => True) s1 := by
      intro hnd
      unfold sysSleep
      rw [wp_bind, wp_emit]
      refine wp_mono (ih _) ?_ (fun _ _ h => h)
      rintro r' s2 ⟨hc2, evs2, he2, hu2, hm⟩
      refine ⟨hc.trans hc2, evs ++ .sleep :: evs2, by rw [he2]; simp [he], ?_, ?_⟩
      · intro e hm
        simp only [List.mem_append, List.mem_cons] at hm
        rcases hm with hm | rfl | hm
        · exact hu e hm
        · simp [IsSend]
        · exact hu2 e hm
      · cases r' with
        | some d => obtain ⟨ch, h⟩ := hm; exact ⟨ch, by simp [h]⟩
        | none =>
          dsimp only at hm ⊢
          have nod : ∀ ch d, .recv ch (.data d) ∉ evs := by
            intro ch d hm
            rcases hs with ⟨c, rfl⟩ | ⟨rfl, -⟩
            · simp at hm; exact hnd d hm.2.symm
            · simp at hm
          refine ⟨?_, ?_, ?_⟩
          · intro e hm'
            simp only [List.mem_append, List.mem_cons] at hm'
            rcases hm' with hm' | rfl | hm'
            · exact hu e hm'
            · simp [IsSend]
            · exact hu2 e hm'
          · have := hm.waited
            rw [sleeps_append]
            simp only [sleeps, List.countP_cons] at *
            simp
            omega
          · intro a b hab ch d hin
            rcases List.append_eq_append_iff.mp hab with ⟨c, h1, h2⟩ | ⟨c, h1, h2⟩
            · subst h1
              rcases List.mem_append.mp hin with h | h
              · exact nod ch d h
              · cases c with
                | nil => cases h
                | cons x c =>
                  rw [List.cons_append] at h2
                  injection h2 with h2 h3
                  subst h2
                  rcases List.mem_cons.mp h with h | h
                  · cases h
                  · exact hm.silent c b h3 ch d h
            · subst h1
              exact nod ch d (by simp [hin])
    cases r with
    | data d =>
      rcases hs with ⟨ch, rfl⟩ | ⟨-, h⟩
      · exact ⟨hc, _, he, hu, ch, by simp⟩
      · cases h
    | eof => exact rest (by simp)
    | err => exact rest (by simp)
    | never => exact rest (by simp)

theorem sysRecv_one (ch : Chan) (s : St) : wp env (sysRecv ch)
    (fun r s' => SameConn s.client s'.client ∧ ∃ evs, s'.hist = s.hist ++ evs ∧ ((∃ ch, evs = [.recv ch r]) ∨ evs = [] ∧ r = .err)) (fun _ _ => True) s := by
  refine wp_mono (sysRecv_wait ch s) ?_ (fun _ _ _ => trivial)
  rintro r s1 ⟨-, rfl⟩
  exact ⟨rfl, _, rfl, .inl ⟨ch, rfl⟩⟩

theorem bioRead_one (s : St) : wp env bioRead
    (fun r s' => SameConn s.client s'.client ∧ ∃ evs, s'.hist = s.hist ++ evs ∧ ((∃ ch, evs = [.recv ch r]) ∨ evs = [] ∧ r = .err)) (fun _ _ => True) s := by
  unfold bioRead
  rw [wp_bind, wp_gets]
  split
  · exact ⟨rfl, [], by simp, .inr ⟨rfl, rfl⟩⟩
  · exact sysRecv_one _ s

theorem dataReads_pos {h : Hist} {ch : Chan} {d : Bytes} (hm : .recv ch (.data d) ∈ h) : 0 < dataReads h := by
  unfold dataReads
  rw [List.countP_pos_iff]
  exact ⟨_, hm, rfl⟩

theorem getTlsReply_awaited (s : St) : wp env getTlsReply (fun code s' => Awaited s s' code) (fun _ _ => True) s := by
  unfold getTlsReply
  simp only [wp_bind, wp_gets]
  refine wp_mono (waitLoop_awaited bioRead_one _ s) ?_ (fun _ _ _ => trivial)
  rintro r s1 ⟨hc, evs, he, hu, hm⟩
  cases r with
  | none => exact ⟨hc, evs, he, hu, .none hm⟩
  | some d =>
    obtain ⟨ch, hm⟩ := hm
    dsimp only
    simp only [wp_bind]
    refine wp_mono (setLastServerResponse_steps (R := Deaf) _ |>.run s1) (fun _ s4 h4 => ?_) (fun _ _ _ => trivial)
    refine wp_mono (addLog_steps (R := Deaf) _ _ |>.run s4) (fun _ s5 h5 => ?_) (fun _ _ _ => trivial)
    obtain ⟨c4, x4, hx4, d4⟩ := h4
    obtain ⟨c5, x5, hx5, d5⟩ := h5
    refine ⟨(hc.trans c4).trans c5, evs ++ (x4 ++ x5), by rw [hx5, hx4, he]; simp, ?_, ?_⟩
    · intro e he
      simp only [List.mem_append] at he
      rcases he with he | he | he
      · exact hu e he
      · exact quiet_unsaid (deaf_quiet (d4 e he))
      · exact quiet_unsaid (deaf_quiet (d5 e he))
    · refine .text _ (dataReads_pos (ch := ch) (d := d) (by simp [hm])) (.inr ⟨ch, d, by simp [hm], ?_⟩) ?_
      · unfold bufferText; rw [cstr_upToNul]
      · unfold bufferText; exact cstr_no_nul _

theorem getServerReply_awaited (s : St) : wp env getServerReply (fun code s' => Awaited s s' code) (fun _ _ => True) s := by
  unfold getServerReply
  rw [wp_bind, wp_gets, wp_ite]
  exact ⟨fun _ => getRawReply_awaited s, fun _ => getTlsReply_awaited s⟩

/-- The code of a text is the number it starts with, if any. -/
theorem extract_nonpos {t : Bytes} (h0 : 0 ∉ t) (h : extractReturnCode (some t) ≤ 0) (c : Int) (hc : ReplyCode t c) : c ≤ 0 := by
  have e : cstr t = t := cstr_eq_self h0
  rcases Props.C06_code_of_any_text t with ⟨_, h1⟩ | ⟨h1, -⟩
  · rw [e] at h1
    have := stoi_of_number h1
    rw [stoi_of_number hc.2] at this
    injection this with this
    omega
  · rw [e] at h1
    rcases h1 with h1 | h1
    · have := hc.1; omega
    · exact absurd ⟨c, hc.2⟩ h1

theorem extract_negative {t : Bytes} (h0 : 0 ∉ t) (h : extractReturnCode (some t) < 0) (c : Int) (hc : ReplyCode t c) : c ≤ 0 := extract_nonpos h0 (by omega) c hc

theorem extract_other {t : Bytes} (h0 : 0 ∉ t) (h : extractReturnCode (some t) ≠ 334) : ¬ ReplyCode t 334 := by
  intro hc
  have e : cstr t = t := cstr_eq_self h0
  rcases Props.C06_code_of_any_text t with ⟨_, h1⟩ | ⟨h1, -⟩
  · rw [e] at h1
    have := stoi_of_number h1
    rw [stoi_of_number hc.2] at this
    injection this with this
    exact h this.symm
  · rw [e] at h1
    rcases h1 with h1 | h1
    · have := hc.1; omega
    · exact absurd ⟨_, hc.2⟩ h1

theorem Answer.garbled {T : Nat} {h : Hist} {code : Int} (ha : Answer T h code) (hu : ∀ e ∈ h, ¬ IsSend e) (hc : code < 0) :
    (code = -1 ∧ InVain T h) ∨ Garbled h := by
  cases ha with
  | none hv => exact .inl ⟨rfl, hv⟩
  | text t hd hr h0 => exact .inr ⟨[], h, [], t, by simp, hu, hd, hr, fun c => extract_negative h0 hc c⟩

theorem Garbled.mono {pre h post : Hist} (hg : Garbled h) : Garbled (pre ++ h ++ post) := by
  obtain ⟨a, mid, b, t, rfl, h1, h2⟩ := hg
  exact ⟨pre ++ a, mid, b ++ post, t, by simp, h1, h2⟩

/-! ### Commands -/

/-- What a command with its reply gives. -/
inductive FbOut (d : Bytes) (e t : Int) (s s' : St) : Int → Prop
  | failed (ch : Chan) (n : Int) : OnlyCloses (St.snoc s (.send .cmd ch (cstr d) (.fail n))) s' → FbOut d e t s s' e
  | late (ch : Chan) (n : Nat) (mid post : Hist) : s'.hist = s.hist ++ .send .cmd ch (cstr d) (.sent n) :: (mid ++ post) → InVain s.client.timeout mid →
      (∀ x ∈ post, IsClosing x) → s'.client.timeout = s.client.timeout → s'.client.kind = s.client.kind → FbOut d e t s s' t
  | garbled (ch : Chan) (n : Nat) (mid post : Hist) (x : Bytes) : s'.hist = s.hist ++ .send .cmd ch (cstr d) (.sent n) :: (mid ++ post) →
      (∀ e ∈ mid, ¬ IsSend e) → 0 < dataReads mid → ReadAs mid x → 0 ∉ x → extractReturnCode (some x) = -1 → (∀ x ∈ post, IsClosing x) →
      s'.client.timeout = s.client.timeout → s'.client.kind = s.client.kind → FbOut d e t s s' t
  | answered (ch : Chan) (n : Nat) (mid : Hist) (x : Bytes) : s'.hist = s.hist ++ .send .cmd ch (cstr d) (.sent n) :: mid → (∀ e ∈ mid, ¬ IsSend e) →
      0 < dataReads mid → ReadAs mid x → 0 ∉ x → SameConn s.client s'.client → (s.client.bio = none → ch = .raw s.client.sock) →
      FbOut d e t s s' (extractReturnCode (some x))

theorem fb_reply {m : M Int} (hm : ∀ s, wp env m (fun code s' => Awaited s s' code) (fun _ _ => True) s) (d e t) (s : St) (ch : Chan) (n : Nat)
    (hch : s.client.bio = none → ch = .raw s.client.sock) :
    wp env (do
        let code ← m
        if code ≠ -1 then pure code
        else do
          cleanup
          pure t : M Int) (fun code s' => FbOut d e t s s' code) (fun _ _ => True) (St.snoc s (.send .cmd ch (cstr d) (.sent n))) := by
  rw [wp_bind]
  refine wp_mono (hm _) (fun code s2 h2 => ?_) (fun _ _ _ => trivial)
  obtain ⟨hc, evs, he, hu, ha⟩ := h2
  have he : s2.hist = s.hist ++ .send .cmd ch (cstr d) (.sent n) :: evs := by rw [he]; simp [St.snoc]
  have hc : SameConn s.client s2.client := hc
  have htk : s2.client.timeout = s.client.timeout ∧ s2.client.kind = s.client.kind := by unfold SameConn at hc; rw [hc]; exact ⟨rfl, rfl⟩
  rw [wp_ite]
  refine ⟨fun hne => ?_, fun heq => ?_⟩
  · cases ha with
    | none => exact absurd rfl hne
    | text x hd hr h0 => exact .answered ch n evs x he hu hd hr h0 hc hch
  · rw [wp_bind]
    refine wp_mono (cleanup_shut.run s2) (fun _ s3 h3 => ?_) (fun _ _ _ => trivial)
    obtain ⟨h3t, h3k, post, h3e, h3c⟩ := h3
    have he3 : s3.hist = s.hist ++ .send .cmd ch (cstr d) (.sent n) :: (evs ++ post) := by rw [h3e, he]; simp
    have heq := Decidable.not_not.mp heq
    cases ha with
    | none hv => exact .late ch n evs post he3 hv h3c (h3t.trans htk.1) (h3k.trans htk.2)
    | text x hd hr h0 => exact .garbled ch n evs post x he3 hu hd hr h0 heq h3c (h3t.trans htk.1) (h3k.trans htk.2)

theorem sendRawFb_fb (d e t) (s : St) (he : e ≠ 0) : wp env (sendRawFb d e t) (fun code s' => FbOut d e t s s' code) (fun _ _ => True) s := by
  unfold sendRawFb sendRaw sendRawWith
  simp only [wp_bind, wp_gets]
  refine wp_mono (sysSend_out _ _ _ s) ?_ (fun _ _ _ => trivial)
  rintro r s1 ⟨hr, rfl⟩
  cases r with
  | never => exact absurd rfl hr
  | sent n =>
    dsimp only
    rw [wp_pure, wp_ite]
    refine ⟨fun h => absurd rfl h, fun _ => ?_⟩
    have := fb_reply (env := env) getRawReply_awaited d e t s (.raw s.client.sock) n (fun _ => rfl)
    simpa only [wp_bind] using this
  | fail n =>
    dsimp only
    simp only [wp_bind]
    refine wp_mono ((setErrNo_shut n).run _) (fun _ s2 h2 => ?_) (fun _ _ _ => trivial)
    refine wp_mono (cleanup_shut.run s2) (fun _ s3 h3 => ?_) (fun _ _ _ => trivial)
    rw [wp_pure, wp_ite]
    exact ⟨fun _ => .failed _ n (h2.trans h3), fun h => absurd he h⟩

theorem sendTlsFb_fb (d e t) (s : St) (he : e ≠ 0) (hb : s.client.bio ≠ none) :
    wp env (sendTlsFb d e t) (fun code s' => FbOut d e t s s' code) (fun _ _ => True) s := by
  unfold sendTlsFb sendBioWith
  simp only [wp_bind, wp_gets]
  cases hb' : s.client.bio with
  | none => exact absurd hb' hb
  | some b =>
    dsimp only
    simp only [wp_bind]
    refine wp_mono (sysSend_out _ _ _ s) ?_ (fun _ _ _ => trivial)
    rintro r s1 ⟨hr, rfl⟩
    cases r with
    | never => exact absurd rfl hr
    | sent n =>
      dsimp only
      rw [wp_pure, wp_ite]
      refine ⟨fun h => absurd rfl h, fun _ => ?_⟩
      have := fb_reply (env := env) getTlsReply_awaited d e t s (.tls b.id b.fd) n (fun h => absurd h hb)
      simpa only [wp_bind] using this
    | fail n =>
      dsimp only
      simp only [wp_bind, wp_ask']
      refine wp_mono ((setErrNo_shut _).run _) (fun _ s2 h2 => ?_) (fun _ _ _ => trivial)
      refine wp_mono (cleanup_shut.run s2) (fun _ s3 h3 => ?_) (fun _ _ _ => trivial)
      rw [wp_pure, wp_ite]
      exact ⟨fun _ => .failed _ n (h2.trans h3), fun h => absurd he h⟩

theorem sendFb_fb (d e t) (s : St) (he : e ≠ 0) : wp env (sendFb d e t) (fun code s' => FbOut d e t s s' code) (fun _ _ => True) s := by
  unfold sendFb
  simp only [wp_bind, wp_gets, wp_ite]
  refine ⟨fun _ => sendRawFb_fb d e t s he, fun h => sendTlsFb_fb d e t s he ?_⟩
  intro hb
  rw [hb] at h
  simp at h

theorem sendPtrFb_fb (d e t) (s : St) (he : e ≠ 0) : wp env (sendPtrFb d e t) (fun code s' => FbOut d e t s s' code) (fun _ _ => True) s := by
  unfold sendPtrFb
  simp only [wp_bind, wp_gets, wp_ite]
  exact ⟨fun _ => sendRawFb_fb d e t s he, fun _ => sendFb_fb d e t s he⟩

end Verif.Proofs
