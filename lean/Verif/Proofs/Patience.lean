import Verif.Proofs.Twin
import Verif.Proofs.SelfSigned
import Verif.Spec.Patience
/-!
# C91: two runs that differ in the time they wait
-/
namespace Verif.Proofs
open Verif Verif.Model Verif.Spec

variable {α β : Type} {env : Env} {n T T' : Nat}

/-- The same state but for the timeouts, which are `T` and `T'`, both `n` or more. -/
structure Slow (n T T' : Nat) (s t : St) : Prop where
  client : s.client = { t.client with timeout := s.client.timeout }
  hist : s.hist = t.hist
  mem : s.mem = t.mem
  first : s.client.timeout = T
  second : t.client.timeout = T'
  least : n ≤ T ∧ n ≤ T'

theorem Slow.time {s t : St} (h : Slow n T T' s t) : n ≤ s.client.timeout ∧ n ≤ t.client.timeout := by rw [h.first, h.second]; exact h.least

theorem Slow.modify {s t : St} (h : Slow n T T' s t) {f : Client → Client} (hf : ∀ c cr, f { c with timeout := cr } = { f c with timeout := cr })
    (hc : ∀ c, (f c).timeout = c.timeout) : Slow n T T' { s with client := f s.client } { t with client := f t.client } := by
  refine ⟨?_, h.hist, h.mem, (hc _).trans h.first, (hc _).trans h.second, h.least⟩
  show f s.client = { f t.client with timeout := (f s.client).timeout }
  rw [hc s.client, ← hf, ← h.client]

theorem Slow.remem {s t : St} (h : Slow n T T' s t) (l : List SessionOp) : Slow n T T' { s with mem := s.mem ++ l } { t with mem := t.mem ++ l } := ⟨h.client, h.hist, congrArg (· ++ l) h.mem, h.first, h.second, h.least⟩

theorem slow_modify {f : Client → Client} (hf : ∀ c cr, f { c with timeout := cr } = { f c with timeout := cr })
    (hc : ∀ c, (f c).timeout = c.timeout) : Twin env (Slow n T T') (M.modify f) (M.modify f) := .modify fun h => h.modify hf hc

theorem slow_modifyMem {op : SessionOp} {f : Client → Client} (hf : ∀ c cr, f { c with timeout := cr } = { f c with timeout := cr })
    (hc : ∀ c, (f c).timeout = c.timeout) : Twin env (Slow n T T') (M.modifyMem op f) (M.modifyMem op f) := .modifyMem fun h => (h.modify hf hc).remem _

theorem Slow.get {s t : St} (h : Slow n T T' s t) {f : Client → α} (hf : ∀ c cr, f { c with timeout := cr } = f c) : f s.client = f t.client := by
  rw [h.client, hf]

theorem Slow.emit {s t : St} (h : Slow n T T' s t) (e : Ev) : Slow n T T' { s with hist := s.hist ++ [e] } { t with hist := t.hist ++ [e] } :=
  ⟨h.client, by show s.hist ++ [e] = t.hist ++ [e]; rw [h.hist], h.mem, h.first, h.second, h.least⟩

theorem slow_ask {f : Env → Hist → α} {ev : α → Ev} : Twin env (Slow n T T') (M.ask f ev) (M.ask f ev) := by
  constructor
  intro s t hst
  refine ⟨congrArg (fun h => Res.ok (f env h)) hst.hist, ?_⟩
  show Slow n T T' { s with hist := s.hist ++ [ev (f env s.hist)] } { t with hist := t.hist ++ [ev (f env t.hist)] }
  rw [hst.hist]
  have := hst.emit (ev (f env t.hist))
  rw [hst.hist] at this
  exact this

theorem slow_emit (e : Ev) : Twin env (Slow n T T') (M.emit e) (M.emit e) := ⟨fun _ _ h => ⟨rfl, h.emit e⟩⟩

theorem slow_sysSend (k c d) : Twin env (Slow n T T') (sysSend k c d) (sysSend k c d) := by
  unfold sysSend
  twins [slow_ask]

instance slow_alike : AlikeButTimeout env (fun _ d d' => d = d') (Slow n T T') where
  refl := fun _ _ => rfl
  kind := fun h => h.get fun _ _ => rfl
  sock := fun h => h.get fun _ _ => rfl
  ptrRaw := fun h => h.get fun _ _ => rfl
  bio := fun h => h.get fun _ _ => rfl
  batch := fun h => h.get fun _ _ => rfl
  isConnected := fun h => h.get fun _ _ => rfl
  setConnected := fun b _ _ h => h.modify (f := ({ · with isConnected := b })) (fun _ _ => rfl) (fun _ => rfl)
  setCtx := fun b _ _ h => h.modify (f := ({ · with ctx := b })) (fun _ _ => rfl) (fun _ => rfl)
  setBio := fun b _ _ h => h.modify (f := ({ · with bio := b })) (fun _ _ => rfl) (fun _ => rfl)
  setSock := fun b _ _ h => h.modify (f := ({ · with sock := b })) (fun _ _ => rfl) (fun _ => rfl)
  setErr := fun b _ _ h => h.modify (f := ({ · with lastErrNo := b })) (fun _ _ => rfl) (fun _ => rfl)
  setResp := fun b _ _ h => (h.modify (f := ({ · with lastResponse := some b })) (fun _ _ => rfl) (fun _ => rfl)).remem _
  addLog := by
    intro i p
    unfold addLog
    refine .bind (.gets fun h => h.get fun _ _ => rfl) fun l => ?_
    cases l with
    | none => exact .stop _
    | some l =>
      dsimp only
      cases l.add i p with
      | error u => exact .stop _
      | ok l' => exact slow_modifyMem (fun _ _ => rfl) (fun _ => rfl)
  send := by
    intro k c d d' hd β f f' hf hs
    subst hd
    constructor
    intro s t hst
    have key := (slow_sysSend (env := env) k c d).run s t hst
    show (M.bind _ f env s).1 = (M.bind _ f' env t).1 ∧ Slow n T T' (M.bind _ f env s).2 (M.bind _ f' env t).2
    unfold M.bind
    revert key
    have nn : ∀ s', sysSend k c d env s ≠ (.ok .never, s') := by
      intro s' h
      unfold sysSend at h
      rw [bind_run] at h
      unfold M.ask at h
      dsimp only at h
      split at h
      · cases h
      · rename_i hne
        exact hne (congrArg (fun x => match x with | (Res.ok a, _) => a | _ => SendRes.fail 0) h)
    rcases e1 : sysSend k c d env s with ⟨r, s1⟩
    rcases sysSend k c d env t with ⟨r', t1⟩
    rintro ⟨h1, h2⟩
    simp only at h1 h2
    subst h1
    cases r with
    | stop x => exact ⟨rfl, h2⟩
    | ok r =>
      cases r with
      | fail x => exact (hf x).run _ _ h2
      | sent n => exact (hs n n).run _ _ h2
      | never => exact absurd e1 (nn s1)
  recv := by
    intro c
    unfold sysRecv
    twins [slow_ask]
  fcntlGet := fun fd => slow_ask
  fcntlSet := fun fd b => slow_ask
  sleep := slow_emit _
  close := fun _ => slow_emit _
  bioFree := fun _ => slow_emit _
  tlsErr := ⟨fun _ _ h => ⟨congrArg (fun x => Res.ok (env.tlsErr x)) h.hist, h⟩⟩
  readFile := fun n => slow_ask

/-! ### Runs that part -/

variable {h0 : Hist} {s t : St}

theorem Impatient.grow {x y h h' : Hist} (hs : Impatient env n T T' h0 h h') : Impatient env n T T' h0 (h ++ x) (h' ++ y) := by
  obtain ⟨shared, rest, rest', ⟨l, hl, rfl, rfl⟩ | ⟨fd, hr, rfl, rfl⟩⟩ := hs
  · exact ⟨shared, rest ++ x, rest' ++ y, .inl ⟨l, hl, by simp, by simp⟩⟩
  · exact ⟨shared, rest ++ x, rest' ++ y, (.inr ⟨fd, hr, by simp, by simp⟩)⟩

/-- After a long wait anything may follow. -/
theorem impatient_cut {m m' : M α} {x l : Hist} (hs : s.hist = h0 ++ x ++ l) (ht : t.hist = s.hist) (hl : Waits n l) (e : Steps env Ext m) (e' : Steps env Ext m') :
    Impatient env n T T' h0 (m env s).2.hist (m' env t).2.hist := by
  obtain ⟨y, hy⟩ := ext_run e s
  obtain ⟨y', hy'⟩ := ext_run e' t
  exact ⟨x, y, y', .inl ⟨l, hl, by rw [hy, hs], by rw [hy', ht, hs]⟩⟩

/-- Both runs do the same, or a long wait (or a `select` with two answers) parts them. -/
structure Patient (env : Env) (n T T' : Nat) (h0 : Hist) (m : M α) : Prop where
  run : 0 < n → ∀ s t, Slow n T T' s t → (∃ x, s.hist = h0 ++ x) → ((m env s).1 = (m env t).1 ∧ Slow n T T' (m env s).2 (m env t).2) ∨ Impatient env n T T' h0 (m env s).2.hist (m env t).2.hist
  ext : Steps env Ext m

theorem Patient.self {m : M α} (h : Twin env (Slow n T T') m m) (e : Steps env Ext m) : Patient env n T T' h0 m := ⟨fun _ s t hst _ => .inl (h.run s t hst), e⟩

theorem Patient.pure (a : α) : Patient env n T T' h0 (Pure.pure a) := .self (.pure a) (.pure a)
theorem Patient.stop (x : Stop) : Patient (α := α) env n T T' h0 (M.stop x) := .self (.stop x) (.stop x)
theorem Patient.env' (f : Env → α) : Patient env n T T' h0 (M.env f) := .self (.env' f) (.env' f)

theorem Patient.bind {a : M β} {f : β → M α} (h : Patient env n T T' h0 a) (hf : ∀ x, Patient env n T T' h0 (f x)) : Patient env n T T' h0 (a >>= f) := by
  refine ⟨fun hn s t hst hx => ?_, .bind h.ext fun x => (hf x).ext⟩
  rcases h.run hn s t hst hx with ⟨h1, h2⟩ | h1
  · have h3 := ext_run h.ext s
    show ((M.bind a f env s).1 = (M.bind a f env t).1 ∧ Slow n T T' (M.bind a f env s).2 (M.bind a f env t).2) ∨ Impatient env n T T' h0 (M.bind a f env s).2.hist (M.bind a f env t).2.hist
    unfold M.bind
    revert h1 h2 h3
    rcases a env s with ⟨r, s1⟩
    rcases a env t with ⟨r', t1⟩
    intro h1 h2 h3
    obtain rfl : r = r' := h1
    cases r with
    | stop e => exact .inl ⟨rfl, h2⟩
    | ok x =>
      obtain ⟨x1, hx⟩ := hx
      obtain ⟨y, hy⟩ := h3
      exact (hf x).run hn s1 t1 h2 ⟨x1 ++ y, by rw [hy, hx, List.append_assoc]⟩
  · obtain ⟨x, hx⟩ := grow_bind' (b := a) s fun x => (hf x).ext
    obtain ⟨y, hy⟩ := grow_bind' (b := a) t fun x => (hf x).ext
    refine .inr ?_
    rw [hx, hy]
    exact Impatient.grow h1

theorem Patient.ite {c : Prop} [Decidable c] {m m' : M α} (h : Patient env n T T' h0 m) (h' : Patient env n T T' h0 m') : Patient env n T T' h0 (if c then m else m') := by
  split
  · exact h
  · exact h'

syntax "patient" "[" term,* "]" : tactic
macro_rules
  | `(tactic| patient [$ts,*]) => do
    let alts ← ts.getElems.mapM fun t => `(tacticSeq| with_reducible apply $t)
    `(tactic| repeat' (first
        $[| $alts:tacticSeq]*
        | assumption
        | with_reducible apply Patient.pure | with_reducible apply Patient.stop
        | with_reducible apply Patient.env'
        | with_reducible apply Patient.bind | with_reducible apply Patient.ite
        | intro _
        | split))

/-! ### Waiting -/

/-- Only attempts to read were added. -/
def Looked (s s' : St) : Prop := ∃ x, s'.hist = s.hist ++ x ∧ ∀ e ∈ x, waiting e = true

instance : Preord Looked where
  refl := fun s => ⟨[], by simp, by simp⟩
  trans := by
    rintro a b c ⟨x, hx, h1⟩ ⟨y, hy, h2⟩
    refine ⟨x ++ y, by rw [hy, hx, List.append_assoc], fun e he => ?_⟩
    rcases List.mem_append.mp he with h | h
    · exact h1 e h
    · exact h2 e h

theorem looked_recv (c) : Steps env Looked (sysRecv c) := by
  unfold sysRecv
  steps [Steps.ask]
  exact ⟨[.recv c _], rfl, by simp [waiting]⟩

theorem looked_bio : Steps env Looked bioRead := by
  unfold bioRead
  steps [looked_recv]

theorem waits_snoc {l x : Hist} {k : Nat} (hl : ∀ e ∈ l, waiting e = true) (hx : ∀ e ∈ x, waiting e = true) (h : k ≤ l.count .sleep + 1) : Waits k (l ++ x ++ [.sleep]) := by
  refine ⟨fun e he => ?_, ?_⟩
  · rcases List.mem_append.mp he with h | h
    · rcases List.mem_append.mp h with h | h
      · exact hl e h
      · exact hx e h
    · rw [List.mem_singleton] at h
      subst h
      rfl
  · simp only [List.count_append, List.count_singleton_self]
    omega

/-- `waitLoop` with `a` and with `b` seconds left, after a wait of less than `n`. -/
theorem waitLoop_parts {read : M RecvRes} (hr : Twin env (Slow n T T') read read) (hl : Steps env Looked read) (he : Steps env Ext read) :
    ∀ (a b : Nat) (s t : St) (x l : Hist), Slow n T T' s t → l.count .sleep < n → n ≤ l.count .sleep + a → n ≤ l.count .sleep + b → (∀ e ∈ l, waiting e = true) → s.hist = h0 ++ x ++ l →
    ((waitLoop read a env s).1 = (waitLoop read b env t).1 ∧ Slow n T T' (waitLoop read a env s).2 (waitLoop read b env t).2) ∨
      Impatient env n T T' h0 (waitLoop read a env s).2.hist (waitLoop read b env t).2.hist := by
  intro a
  induction a with
  | zero => intro b s t x l _ h1 h2; omega
  | succ a ih =>
    intro b s t x l hst h1 h2 h3 hw hs
    cases b with
    | zero => omega
    | succ b =>
      have e1 : ∀ k, Steps env Ext (waitLoop read k) := fun k => waitLoop_steps he k
      unfold waitLoop
      have key := hr.run s t hst
      obtain ⟨y, hy, hy'⟩ := hl.state s
      rw [bind_run, bind_run]
      revert key hy
      rcases read env s with ⟨r, s1⟩
      rcases read env t with ⟨r', t1⟩
      rintro ⟨k1, k2⟩ hy
      simp only at k1 k2 hy
      subst k1
      have again : ((do sysSleep; waitLoop read a : M (Option Bytes)) env s1).1 = ((do sysSleep; waitLoop read b : M (Option Bytes)) env t1).1 ∧
          Slow n T T' ((do sysSleep; waitLoop read a : M (Option Bytes)) env s1).2 ((do sysSleep; waitLoop read b : M (Option Bytes)) env t1).2 ∨
          Impatient env n T T' h0 ((do sysSleep; waitLoop read a : M (Option Bytes)) env s1).2.hist ((do sysSleep; waitLoop read b : M (Option Bytes)) env t1).2.hist := by
        have hw' := waits_snoc hw hy' (k := l.count .sleep + 1) (Nat.le_refl _)
        have h5 : (s1.hist ++ [Ev.sleep]) = h0 ++ x ++ (l ++ y ++ [Ev.sleep]) := by rw [hy, hs]; simp
        by_cases hlast : (l ++ y ++ [Ev.sleep]).count Ev.sleep < n
        · have h6 := hw'.2
          exact ih b { s1 with hist := s1.hist ++ [.sleep] } { t1 with hist := t1.hist ++ [.sleep] } x (l ++ y ++ [.sleep]) (k2.emit .sleep) hlast (by omega) (by omega) hw'.1 h5
        · exact .inr (impatient_cut (m := waitLoop read a) (m' := waitLoop read b) (s := { s1 with hist := s1.hist ++ [.sleep] }) (t := { t1 with hist := t1.hist ++ [.sleep] }) h5
            (by show t1.hist ++ _ = s1.hist ++ _; rw [k2.hist]) ⟨hw'.1, by omega⟩ (e1 a) (e1 b))
      cases r with
      | stop e => exact .inl ⟨rfl, k2⟩
      | ok r =>
        cases r with
        | data d => exact .inl ⟨rfl, k2⟩
        | eof => exact again
        | err => exact again
        | never => exact again

theorem patient_waitLoop {read : M RecvRes} (hr : Twin env (Slow n T T') read read) (hl : Steps env Looked read) (he : Steps env Ext read) {k : Option Bytes → M α}
    (hk : ∀ r, Patient env n T T' h0 (k r)) : Patient env n T T' h0 (M.gets (·.timeout) >>= fun T => waitLoop read T >>= k) := by
  have e : (M.gets (·.timeout) >>= fun T => waitLoop read T >>= k) = ((M.gets (·.timeout) >>= fun T => waitLoop read T) >>= k) := rfl
  rw [e]
  refine .bind ⟨fun hn s t hst hx => ?_, .bind (.gets _) fun T => waitLoop_steps he T⟩ hk
  obtain ⟨x, hx⟩ := hx
  exact waitLoop_parts hr hl he _ _ s t x [] hst (by simpa using hn) (by simpa using hst.time.1) (by simpa using hst.time.2) (by simp) (by rw [hx, List.append_nil])

/-- The loop of `getRawCommandReply` after a wait of `w` seconds. -/
theorem rawReplyLoop_parts : ∀ (k w : Nat) (acc : Bytes) (got : Bool) (s t : St) (x l : Hist), Slow n T T' s t → w < n → w ≤ l.count .sleep → (∀ e ∈ l, waiting e = true) → s.hist = h0 ++ x ++ l →
    ((rawReplyLoop k w acc got env s).1 = (rawReplyLoop k w acc got env t).1 ∧ Slow n T T' (rawReplyLoop k w acc got env s).2 (rawReplyLoop k w acc got env t).2 ∧
      ∀ r, (rawReplyLoop k w acc got env s).1 = .ok r → r.1 < n) ∨
      Impatient env n T T' h0 (rawReplyLoop k w acc got env s).2.hist (rawReplyLoop k w acc got env t).2.hist := by
  intro k
  induction k with
  | zero => intro w acc got s t x l hst hw hl hwl hs; exact .inl ⟨rfl, hst, fun r h => by cases h⟩
  | succ k ih =>
    intro w acc got s t x l hst hw hl hwl hs
    have e1 : ∀ w a g, Steps env Ext (rawReplyLoop k w a g) := fun w a g => rawReplyLoop_steps k w a g
    have hsock : s.client.sock = t.client.sock := hst.get fun _ _ => rfl
    have hr : Twin env (Slow n T T') (sysRecv (.raw t.client.sock)) (sysRecv (.raw t.client.sock)) := (slow_alike (env := env) (n := n) (T := T) (T' := T')).recv _
    have key := hr.run s t hst
    obtain ⟨y, hy, hy'⟩ := (looked_recv (env := env) (.raw t.client.sock)).state s
    have g1 : w < s.client.timeout := Nat.lt_of_lt_of_le hw hst.time.1
    have g2 : w < t.client.timeout := Nat.lt_of_lt_of_le hw hst.time.2
    have open1 : rawReplyLoop (k + 1) w acc got env s = (sysRecv (.raw s.client.sock) >>= fun r => match r with
      | .data d => if 1024 ≤ d.length then M.stop (.ub .outOfBounds) else if w < s.client.timeout then rawReplyLoop k w (acc ++ cstr d) true else Pure.pure (w, acc ++ cstr d, true)
      | r => if r = .err ∧ got = true then Pure.pure (w, acc, got) else do
          sysSleep
          if w + 1 < s.client.timeout then rawReplyLoop k (w + 1) acc got else Pure.pure (w + 1, acc, got)) env s := rfl
    have open2 : rawReplyLoop (k + 1) w acc got env t = (sysRecv (.raw t.client.sock) >>= fun r => match r with
      | .data d => if 1024 ≤ d.length then M.stop (.ub .outOfBounds) else if w < t.client.timeout then rawReplyLoop k w (acc ++ cstr d) true else Pure.pure (w, acc ++ cstr d, true)
      | r => if r = .err ∧ got = true then Pure.pure (w, acc, got) else do
          sysSleep
          if w + 1 < t.client.timeout then rawReplyLoop k (w + 1) acc got else Pure.pure (w + 1, acc, got)) env t := rfl
    rw [open1, open2, hsock, bind_run, bind_run]
    rw [hst.first] at g1 ⊢
    rw [hst.second] at g2 ⊢
    have n1 := hst.least.1
    have n2 := hst.least.2
    revert key hy
    rcases sysRecv (.raw t.client.sock) env s with ⟨r, s1⟩
    rcases sysRecv (.raw t.client.sock) env t with ⟨r', t1⟩
    rintro ⟨k1, k2⟩ hy
    simp only at k1 k2 hy
    subst k1
    have longer : ∀ e ∈ l ++ y, waiting e = true := by
      intro e he
      rcases List.mem_append.mp he with h | h
      · exact hwl e h
      · exact hy' e h
    have h5 : s1.hist = h0 ++ x ++ (l ++ y) := by rw [hy, hs]; simp
    have h6 : (s1.hist ++ [.sleep]) = h0 ++ x ++ (l ++ y ++ [.sleep]) := by rw [h5]; simp
    have again : ∀ R R' : M (Nat × Bytes × Bool), R = (do sysSleep; if w + 1 < T then rawReplyLoop k (w + 1) acc got else Pure.pure (w + 1, acc, got)) →
        R' = (do sysSleep; if w + 1 < T' then rawReplyLoop k (w + 1) acc got else Pure.pure (w + 1, acc, got)) →
        ((R env s1).1 = (R' env t1).1 ∧ Slow n T T' (R env s1).2 (R' env t1).2 ∧ ∀ r, (R env s1).1 = .ok r → r.1 < n) ∨ Impatient env n T T' h0 (R env s1).2.hist (R' env t1).2.hist := by
      rintro R R' rfl rfl
      have hw' := waits_snoc hwl hy' (k := w + 1) (by omega)
      by_cases hlast : w + 1 < n
      · rw [if_pos (Nat.lt_of_lt_of_le hlast n1), if_pos (Nat.lt_of_lt_of_le hlast n2)]
        exact ih (w + 1) acc got { s1 with hist := s1.hist ++ [.sleep] } { t1 with hist := t1.hist ++ [.sleep] } x (l ++ y ++ [.sleep]) (k2.emit .sleep) hlast hw'.2 hw'.1 h6
      · exact .inr (impatient_cut (m := if w + 1 < T then rawReplyLoop k (w + 1) acc got else Pure.pure (w + 1, acc, got)) (m' := if w + 1 < T' then rawReplyLoop k (w + 1) acc got else Pure.pure (w + 1, acc, got))
          (s := { s1 with hist := s1.hist ++ [.sleep] }) (t := { t1 with hist := t1.hist ++ [.sleep] }) h6
            (by show t1.hist ++ _ = s1.hist ++ _; rw [k2.hist]) ⟨hw'.1, by have := hw'.2; omega⟩ (.ite (e1 _ _ _) (.pure _)) (.ite (e1 _ _ _) (.pure _)))
    cases r with
    | stop e => exact .inl ⟨rfl, k2, fun r h => by cases h⟩
    | ok r =>
      cases r with
      | data d =>
        dsimp only
        by_cases hd : 1024 ≤ d.length
        · rw [if_pos hd, if_pos hd]
          exact .inl ⟨rfl, k2, fun r h => by cases h⟩
        · rw [if_neg hd, if_neg hd, if_pos g1, if_pos g2]
          exact ih w _ true s1 t1 x (l ++ y) k2 hw (by simp only [List.count_append]; omega) longer h5
      | eof =>
        dsimp only
        exact again _ _ (if_neg (by simp)) (if_neg (by simp))
      | never =>
        dsimp only
        exact again _ _ (if_neg (by simp)) (if_neg (by simp))
      | err =>
        dsimp only
        by_cases hg : got = true
        · rw [if_pos ⟨rfl, hg⟩, if_pos ⟨rfl, hg⟩]
          exact .inl ⟨rfl, k2, fun r h => by cases h; exact hw⟩
        · exact again _ _ (if_neg fun h => hg h.2) (if_neg fun h => hg h.2)

theorem patient_raw {f : Nat × Bytes × Bool → M α} (k : Nat) (hf : ∀ r, r.1 < n → Patient env n T T' h0 (f r)) (he : ∀ r, Steps env Ext (f r)) :
    Patient env n T T' h0 (rawReplyLoop k 0 [] false >>= f) := by
  have el : Steps env Ext (rawReplyLoop k 0 [] false) := rawReplyLoop_steps _ _ _ _
  refine ⟨fun hn s t hst hx => ?_, .bind el he⟩
  obtain ⟨x, hx⟩ := hx
  rcases rawReplyLoop_parts k 0 [] false s t x [] hst hn (Nat.zero_le _) (by simp) (by rw [hx, List.append_nil]) with ⟨h1, h2, h4⟩ | h1
  · have h3 := ext_run el s
    rw [bind_run, bind_run]
    revert h1 h2 h3 h4
    rcases rawReplyLoop k 0 [] false env s with ⟨r, s1⟩
    rcases rawReplyLoop k 0 [] false env t with ⟨r', t1⟩
    intro h1 h2 h4 h3
    obtain rfl : r = r' := h1
    cases r with
    | stop e => exact .inl ⟨rfl, h2⟩
    | ok r =>
      obtain ⟨y, hy⟩ := h3
      exact (hf r (h4 r rfl)).run hn s1 t1 h2 ⟨x ++ y, by rw [hy, hx, List.append_assoc]⟩
  · obtain ⟨x, hx⟩ := grow_bind' (b := rawReplyLoop k 0 [] false) (env := env) s he
    obtain ⟨y, hy⟩ := grow_bind' (b := rawReplyLoop k 0 [] false) (env := env) t he
    refine .inr ?_
    rw [hx, hy]
    exact Impatient.grow h1

end Verif.Proofs
