import Verif.Spec.WinReports
import Verif.Proofs.WinSock
import Verif.Proofs.Log
import Verif.Proofs.Errors
/-!
# What the opening on Windows reports
-/
namespace Verif.Proofs
open Verif Verif.Model Verif.Spec

variable {env : WinEnv}

theorem natDec_eq (n : Nat) : natDec n = decimalText n := by
  simp [natDec, decimalText, toString, Nat.repr, Int.repr]

theorem intDec_eq (n : Int) : intDec n = decimalText n := by
  unfold intDec
  cases n with
  | ofNat m => simp [natDec_eq]
  | negSucc m =>
    have : Int.negSucc m < 0 := Int.negSucc_lt_zero m
    simp [this, natDec, decimalText, toString, Int.repr, Nat.repr]

theorem natDec_noNul (n : Nat) : 0 ∉ natDec n := by
  unfold natDec
  intro h
  obtain ⟨c, hc, e⟩ := List.mem_map.mp h
  have := Nat.isDigit_of_mem_toDigits (by omega) (by omega) hc
  simp only [Char.isDigit, Bool.and_eq_true, decide_eq_true_eq] at this
  have h1 : 48 ≤ c.toNat := this.1
  have h2 : c.toNat ≤ 57 := this.2
  have := congrArg UInt8.toNat e
  simp at this
  omega

theorem intDec_noNul (n : Int) : 0 ∉ intDec n := by
  unfold intDec
  split
  · simp [natDec_noNul]
  · exact natDec_noNul _

/-- From `s` to `s'` the texts were logged and the number recorded; Winsock and the socket apart, nothing else changed. -/
def Reported (s s' : WinSt) (num : Option Int) (texts : List Bytes) : Prop :=
  (∃ l l', s.client.base.log = some l ∧ LogOk l ∧ s'.client.base.log = some l' ∧ LogOk l' ∧ l'.content = l.content ++ clientLog texts) ∧
  s'.client.base.lastErrNo = num.getD s.client.base.lastErrNo

theorem clientLog_append (a b : List Bytes) : clientLog (a ++ b) = clientLog a ++ clientLog b := by simp [clientLog, logText]

theorem Reported.trans {a b c : WinSt} {n n' : Option Int} {t t' : List Bytes} (h : Reported a b n t) (h' : Reported b c n' t') :
    Reported a c (n'.or n) (t ++ t') := by
  obtain ⟨⟨l1, l2, e1, o1, e2, o2, c1⟩, e3⟩ := h
  obtain ⟨⟨l3, l4, e4, o3, e5, o4, c2⟩, e6⟩ := h'
  cases e2.symm.trans e4
  refine ⟨⟨l1, l4, e1, o1, e5, o4, by rw [c2, c1, clientLog_append, List.append_assoc]⟩, ?_⟩
  rw [e6, e3]
  cases n' <;> simp

theorem winLog_says (i : Bytes) (s : WinSt) {l : Log} (hl : s.client.base.log = some l) (ho : LogOk l) (hi : 0 ∉ i) :
    wpW env (winLog i) (fun _ s' => Reported s s' none [i] ∧ s'.hist = s.hist) (fun _ => False) s := by
  unfold winLog
  rw [wpW_bind, wpW_gets, hl]
  obtain ⟨l', e, ho', hc, -⟩ := log_add_ok ho i b!"c"
  simp only [e]
  rw [wpW_base]
  refine ⟨⟨⟨l, l', hl, ho, rfl, ho', ?_⟩, rfl⟩, rfl⟩
  rw [hc]
  simp [clientLog, logText, logEntry, logItem, cstr_eq_self hi, escapeCRLF_eq]

theorem Reported.log {a b : WinSt} {n : Option Int} {t : List Bytes} (h : Reported a b n t) : ∃ l, b.client.base.log = some l ∧ LogOk l := by
  obtain ⟨⟨-, l', -, -, e, o, -⟩, -⟩ := h
  exact ⟨l', e, o⟩

theorem winErrNo_says (e : Int) (s : WinSt) {l : Log} (hl : s.client.base.log = some l) (ho : LogOk l) :
    wpW env (winErrNo e) (fun _ s' => Reported s s' (some e) [] ∧ s'.hist = s.hist) (fun _ => False) s := by
  unfold winErrNo
  rw [wpW_base]
  exact ⟨⟨⟨l, l, hl, ho, hl, ho, by simp [clientLog, logText]⟩, rfl⟩, rfl⟩

theorem addWSAMessage_says (e : Int) (s : WinSt) {l : Log} (hl : s.client.base.log = some l) (ho : LogOk l) (ht : ∀ n t, env.wsaText n = some t → 0 ∉ t) :
    wpW env (addWSAMessage e) (fun _ s' => Reported s s' none (env.wsaText e).toList ∧ s'.hist = s.hist) (fun _ => False) s := by
  unfold addWSAMessage
  rw [wpW_bind, wpW_env]
  cases hm : env.wsaText e with
  | none => exact ⟨⟨⟨l, l, hl, ho, hl, ho, by simp [clientLog, logText]⟩, rfl⟩, rfl⟩
  | some t => exact winLog_says t s hl ho (ht _ _ hm)

theorem doWSACleanup_says (s : WinSt) {l : Log} (hl : s.client.base.log = some l) (ho : LogOk l) :
    wpW env doWSACleanup
      (fun _ s' => ∃ r, s'.hist = s.hist ++ [.wsaCleanup r] ∧
        Reported s s' (if r = 0 then none else some (env.lastError s'.hist))
          (if r = 0 then [] else [b!"WSACleanup failed with error: " ++ decimalText (env.lastError s'.hist)]))
      (fun _ => False) s := by
  unfold doWSACleanup
  rw [wpW_bind, wpW_ask, wpW_ite]
  generalize env.wsaCleanup s.hist = r
  refine ⟨fun hr => ?_, fun hr => ?_⟩
  · rw [wpW_bind, wpW_ask', wpW_bind]
    refine wpW_mono (winErrNo_says _ _ hl ho) (fun _ s1 h1 => ?_) (fun _ h => h)
    obtain ⟨l1, e1, o1⟩ := h1.1.log
    rw [wpW_bind]
    refine wpW_mono (winLog_says _ _ e1 o1 (by simp [intDec_noNul])) (fun _ s2 h2 => ?_) (fun _ h => h)
    rw [wpW_modify]
    have hh : s2.hist = s.hist ++ [.wsaCleanup r] := h2.2.trans h1.2
    refine ⟨r, hh, ?_⟩
    have := h1.1.trans h2.1
    rw [if_neg hr, if_neg hr]
    dsimp only at this ⊢
    rw [hh, ← intDec_eq]
    exact this
  · rw [wpW_modify]
    have hr := Decidable.not_not.mp hr
    subst hr
    exact ⟨0, rfl, ⟨l, l, hl, ho, hl, ho, by simp [clientLog, logText]⟩, rfl⟩

theorem winOpenFailed_says (e code : Int) (s : WinSt) {l : Log} (hl : s.client.base.log = some l) (ho : LogOk l)
    (ht : ∀ n t, env.wsaText n = some t → 0 ∉ t) :
    wpW env (winOpenFailed e code)
      (fun c s' => c = code ∧ ∃ r, s'.hist = s.hist ++ [.wsaCleanup r] ∧
        Reported s s' (some (keptNumber e r (env.lastError s'.hist))) (failureTexts (env.wsaText e) r (env.lastError s'.hist)))
      (fun _ => False) s := by
  unfold winOpenFailed
  rw [wpW_bind]
  refine wpW_mono (addWSAMessage_says e s hl ho ht) (fun _ s1 h1 => ?_) (fun _ h => h)
  obtain ⟨l1, e1, o1⟩ := h1.1.log
  rw [wpW_bind]
  refine wpW_mono (winErrNo_says e s1 e1 o1) (fun _ s2 h2 => ?_) (fun _ h => h)
  obtain ⟨l2, e2, o2⟩ := h2.1.log
  rw [wpW_bind]
  refine wpW_mono (doWSACleanup_says s2 e2 o2) (fun _ s3 h3 => ?_) (fun _ h => h)
  obtain ⟨r, hh, h3⟩ := h3
  rw [wpW_pure]
  refine ⟨rfl, r, by rw [hh, h2.2, h1.2], ?_⟩
  have := (h1.1.trans h2.1).trans h3
  unfold keptNumber failureTexts
  by_cases hr : r = 0
  · simpa [hr] using this
  · simpa [hr] using this

theorem initializeSessionWin_says (s : WinSt) {name : Bytes} (hn : s.client.base.serverName = some name) (hz : 0 ∉ name)
    (ht : ∀ n t, env.wsaText n = some t → 0 ∉ t) :
    wpW env initializeSessionWin
      (fun code s' => ∃ evs num texts, WinOpening env name s.client.base.port s.hist evs code num texts ∧ s'.hist = s.hist ++ evs ∧
        s'.client.base.lastErrNo = num.getD s.client.base.lastErrNo ∧ ∃ l, s'.client.base.log = some l ∧ l.content = clientLog texts)
      (fun _ => False) s := by
  unfold initializeSessionWin
  rw [wpW_bind, wpW_base, wpW_bind, wpW_ask]
  dsimp only
  generalize env.startup s.hist = r0
  -- from the fresh log to the end
  have fin : ∀ {s0 s' : WinSt} {num texts}, Reported s0 s' num texts → s0.client.base.log = some .fresh →
      s0.client.base.lastErrNo = s.client.base.lastErrNo →
      s'.client.base.lastErrNo = num.getD s.client.base.lastErrNo ∧ ∃ l, s'.client.base.log = some l ∧ l.content = clientLog texts := by
    intro s0 s' num texts h e0 e1
    obtain ⟨⟨l, l', a, -, b, -, c⟩, d⟩ := h
    rw [e0] at a
    cases a
    exact ⟨by rw [d, e1], l', b, by simpa [Log.fresh] using c⟩
  rw [wpW_ite]
  refine ⟨fun hr => ?_, fun hr => ?_⟩
  · rw [wpW_bind]
    refine wpW_mono (winErrNo_says r0 _ rfl logOk_fresh) (fun _ s1 h1 => ?_) (fun _ h => h)
    obtain ⟨l1, e1, o1⟩ := h1.1.log
    rw [wpW_bind]
    refine wpW_mono (winLog_says _ _ e1 o1 (by simp [intDec_noNul])) (fun _ s2 h2 => ?_) (fun _ h => h)
    rw [wpW_pure]
    refine ⟨_, _, _, .noWinsock r0 hr, h2.2.trans h1.2, ?_⟩
    have := h1.1.trans h2.1
    rw [← intDec_eq]
    exact fin this rfl rfl
  · have hr := Decidable.not_not.mp hr
    subst hr
    rw [wpW_bind, wpW_modify, wpW_bind, wpW_gets, wpW_bind, wpW_gets, wpW_bind, wpW_ask]
    dsimp only
    rw [hn]
    have hport : natDec s.client.base.port = decimalText s.client.base.port := natDec_eq _
    rw [hport]
    generalize env.resolve _ (some name) (decimalText s.client.base.port) = r1
    rw [wpW_ite]
    refine ⟨fun hr1 => ?_, fun hr1 => ?_⟩
    · refine wpW_mono (winOpenFailed_says _ _ _ rfl logOk_fresh ht) (fun c s1 h1 => ?_) (fun _ h => h)
      obtain ⟨rfl, r', e1, h1⟩ := h1
      have e1 : s1.hist = s.hist ++ [.startup 0, .resolve (some name) (decimalText s.client.base.port) r1, .wsaCleanup r'] := by rw [e1]; simp
      refine ⟨_, _, _, .noAddress r1 r' _ hr1 rfl, e1, ?_⟩
      rw [← e1]
      exact fin h1 rfl rfl
    · have hr1 := Decidable.not_not.mp hr1
      subst hr1
      rw [wpW_bind, wpW_ask, wpW_bind, wpW_base]
      dsimp only
      generalize env.socket _ = h
      rw [wpW_ite]
      refine ⟨fun hh => ?_, fun hh => ?_⟩
      · rw [wpW_bind, wpW_ask']
        refine wpW_mono (winOpenFailed_says _ _ _ rfl logOk_fresh ht) (fun c s1 h1 => ?_) (fun _ h => h)
        obtain ⟨rfl, r', e1, h1⟩ := h1
        have e1 : s1.hist = s.hist ++ ([.startup 0, .resolve (some name) (decimalText s.client.base.port) 0, .socket h] ++ [.wsaCleanup r']) := by rw [e1]; simp
        refine ⟨_, _, _, .noSocket r' _ _ _ h hh rfl rfl rfl, e1, ?_⟩
        rw [← e1]
        have := fin h1 rfl rfl
        simpa using this
      · rw [wpW_bind]
        refine wpW_mono (winLog_says _ _ rfl logOk_fresh (by simp [hz, ← natDec_eq, natDec_noNul])) (fun _ s1 h1 => ?_) (fun _ h => h)
        obtain ⟨l1, o1, k1⟩ := h1.1.log
        have hh1 : s1.hist = s.hist ++ [.startup 0, .resolve (some name) (decimalText s.client.base.port) 0, .socket h] := by rw [h1.2]; simp
        rw [wpW_bind, wpW_ask, wpW_ite]
        generalize env.connect s1.hist (handleInt h) = ok
        refine ⟨fun hc => ?_, fun hc => ?_⟩
        · rw [wpW_pure]
          subst hc
          refine ⟨_, _, _, .connected h hh, by simp [hh1], ?_⟩
          exact fin h1.1 rfl rfl
        · rw [wpW_bind, wpW_ask']
          have hc : ok = false := by simpa using hc
          subst hc
          refine wpW_mono (winOpenFailed_says _ _ _ (by exact o1) k1 ht) (fun c s2 h2 => ?_) (fun _ h => h)
          obtain ⟨rfl, r', e2, h2⟩ := h2
          have e2 : s2.hist = s.hist ++ ([.startup 0, .resolve (some name) (decimalText s.client.base.port) 0, .socket h, .connect (handleInt h) false] ++ [.wsaCleanup r']) := by
            rw [e2]; simp [hh1]
          refine ⟨_, _, _, .noConnection r' _ _ _ h hh rfl rfl rfl, e2, ?_⟩
          rw [← e2]
          have h1' : Reported _ { s1 with hist := s1.hist ++ [.connect (handleInt h) false] } _ _ := h1.1
          have := fin (h1'.trans h2) rfl rfl
          simpa [hh1] using this

theorem setBlockingWin_says (nb : Bool) (s : WinSt) {l : Log} (hl : s.client.base.log = some l) (ho : LogOk l) (ht : ∀ n, 0 ∉ env.errText n) :
    wpW env (setBlockingWin nb)
      (fun code s' => ∃ ok, s'.hist = s.hist ++ [.ioctl s.client.base.sock nb ok] ∧
        (ok = true ∧ code = 0 ∧ s'.client = s.client ∨
         ok = false ∧ code = (if nb then -8 else -7) ∧ Reported s s' (some (env.lastError s'.hist)) [env.errText (env.lastError s'.hist)]))
      (fun _ => False) s := by
  unfold setBlockingWin
  rw [wpW_bind, wpW_gets, wpW_bind, wpW_ask, wpW_ite]
  generalize env.ioctl s.hist s.client.base.sock nb = ok
  refine ⟨fun hc => ?_, fun hc => ?_⟩
  · rw [wpW_pure]
    subst hc
    exact ⟨true, rfl, .inl ⟨rfl, rfl, rfl⟩⟩
  · have hc : ok = false := by simpa using hc
    subst hc
    rw [wpW_bind, wpW_ask', wpW_bind]
    refine wpW_mono (winErrNo_says _ _ hl ho) (fun _ s1 h1 => ?_) (fun _ h => h)
    obtain ⟨l1, e1, o1⟩ := h1.1.log
    rw [wpW_bind, wpW_env, wpW_bind]
    refine wpW_mono (winLog_says _ _ e1 o1 (ht _)) (fun _ s2 h2 => ?_) (fun _ h => h)
    rw [wpW_pure]
    have hh : s2.hist = s.hist ++ [.ioctl s.client.base.sock nb false] := h2.2.trans h1.2
    refine ⟨false, hh, .inr ⟨rfl, rfl, ?_⟩⟩
    rw [hh]
    exact h1.1.trans h2.1

end Verif.Proofs
