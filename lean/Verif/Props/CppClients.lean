import Verif.Spec.Sharing
/-!
# C23: credentials of the cpp clients
-/
namespace Verif.Props
open Verif Verif.Model Verif.Spec

/-- How the heap goes with the expectation at moment `n`. -/
structure Fits (n : Nat) (h : CppHeap) (o : Holders) : Prop where
  shows : ShowsAll h o
  fresh : ∀ a, h.next ≤ a → h.mem a = none
  young : ∀ x t c, o x = some (some (t, c)) → t < n
  same : ∀ x y t c t' c' a, o x = some (some (t, c)) → o y = some (some (t', c')) → h.client x = some (some a) →
    h.client y = some (some a) → (t, c) = (t', c')

theorem Fits.absent {n : Nat} {h : CppHeap} {o : Holders} (f : Fits n h o) (x : Nat) : h.client x = none ↔ o x = none := by
  have := f.shows x
  split at this <;> simp_all
  obtain ⟨a, h1, _⟩ := this
  simp [h1]

theorem Fits.null {n : Nat} {h : CppHeap} {o : Holders} (f : Fits n h o) (x : Nat) : h.client x = some none ↔ o x = some none := by
  have := f.shows x
  split at this <;> simp_all
  obtain ⟨a, h1, _⟩ := this
  simp [h1]

theorem Fits.ptr {n : Nat} {h : CppHeap} {o : Holders} (f : Fits n h o) {x a : Nat} (hx : h.client x = some (some a)) :
    ∃ t c, o x = some (some (t, c)) ∧ h.mem a = some c := by
  have := f.shows x
  split at this
  · simp_all
  · simp_all
  · rename_i t c ho
    obtain ⟨b, h1, h2⟩ := this
    rw [hx] at h1
    cases h1
    exact ⟨t, c, ho, h2⟩

theorem Fits.later {n : Nat} {h : CppHeap} {o : Holders} (f : Fits n h o) : Fits (n + 1) h o :=
  ⟨f.shows, f.fresh, fun x t c hx => Nat.lt_succ_of_lt (f.young x t c hx), f.same⟩

/-- Taking over what another client has, or nothing. -/
theorem Fits.put {n : Nat} {h : CppHeap} {o : Holders} (f : Fits n h o) (x : Nat) {p : Option Ptr} {v : Option (Option (Nat × Credential))}
    (hp : (p = none ∧ v = none) ∨ (p = some none ∧ v = some none) ∨ ∃ y, h.client y = p ∧ o y = v) :
    Fits n (h.put x p) (o.put x v) := by
  -- the new member of `x` is consistent
  have key : (p = none ∧ v = none) ∨ (p = some none ∧ v = some none) ∨
      ∃ y a t c, h.client y = some (some a) ∧ o y = some (some (t, c)) ∧ p = some (some a) ∧ v = some (some (t, c)) ∧ h.mem a = some c := by
    rcases hp with hp | hp | ⟨y, h1, h2⟩
    · exact .inl hp
    · exact .inr (.inl hp)
    · have := f.shows y
      split at this
      · simp_all
      · simp_all
      · rename_i t c ho
        obtain ⟨a, h3, h4⟩ := this
        exact .inr (.inr ⟨y, a, t, c, h3, ho, by rw [← h1, h3], by rw [← h2, ho], h4⟩)
  refine ⟨fun z => ?_, f.fresh, fun z t c hz => ?_, fun z w t c t' c' a hz hw hza hwa => ?_⟩
  · by_cases e : z = x
    · subst e
      simp only [Holders.put, CppHeap.put, if_true]
      rcases key with ⟨h1, h2⟩ | ⟨h1, h2⟩ | ⟨y, a, t, c, _, _, h1, h2, h3⟩
      · rw [h1, h2]
      · rw [h1, h2]
      · rw [h1, h2]; exact ⟨a, rfl, h3⟩
    · simp only [Holders.put, CppHeap.put, if_neg e]
      exact f.shows z
  · by_cases e : z = x
    · subst e
      simp only [Holders.put, if_true] at hz
      rcases key with ⟨h1, h2⟩ | ⟨h1, h2⟩ | ⟨y, a, t', c', _, h0, h1, h2, h3⟩
      · simp_all
      · simp_all
      · rw [h2] at hz; cases hz; exact f.young y _ _ h0
    · simp only [Holders.put, if_neg e] at hz
      exact f.young z t c hz
  · -- both clients with the address are clients that had it before
    have old : ∀ z t c, (o.put x v) z = some (some (t, c)) → (h.put x p).client z = some (some a) →
        ∃ y, o y = some (some (t, c)) ∧ h.client y = some (some a) := by
      intro z t c hz hza
      by_cases e : z = x
      · subst e
        simp only [Holders.put, CppHeap.put, if_true] at hz hza
        rcases key with ⟨h1, h2⟩ | ⟨h1, h2⟩ | ⟨y, a', t', c', h4, h0, h1, h2, h3⟩
        · simp_all
        · simp_all
        · rw [h1] at hza; rw [h2] at hz; cases hza; cases hz
          exact ⟨y, h0, h4⟩
      · simp only [Holders.put, CppHeap.put, if_neg e] at hz hza
        exact ⟨z, hz, hza⟩
    obtain ⟨y1, p1, q1⟩ := old z t c hz hza
    obtain ⟨y2, p2, q2⟩ := old w t' c' hw hwa
    exact f.same y1 y2 _ _ _ _ a p1 p2 q1 q2

/-- Replacing credentials that nobody else has. -/
theorem Fits.replace {n : Nat} {h : CppHeap} {o : Holders} (f : Fits n h o) (x : Nat) {p : Ptr} (hp : h.client x = some p)
    (hs : NotShared o x) (c : Credential) :
    ∃ h1 h', h.delete p = .ok h1 ∧ h.replace x p c = .ok h' ∧ h' = (h1.alloc c).2.put x (some (some (h1.alloc c).1)) ∧
      (∀ b, p ≠ some b → h1.mem b = h.mem b) ∧ Fits (n + 1) h' (o.put x (some (some (n, c)))) := by
  obtain ⟨h1, hd, hc1, hn1, hm1, hm1'⟩ : ∃ h1, h.delete p = .ok h1 ∧ h1.client = h.client ∧ h1.next = h.next ∧
      (∀ b, p ≠ some b → h1.mem b = h.mem b) ∧ (∀ b, h1.mem b = none ∨ h1.mem b = h.mem b) := by
    cases p with
    | none => exact ⟨h, rfl, rfl, rfl, fun _ _ => rfl, fun _ => .inr rfl⟩
    | some a =>
      obtain ⟨t, c0, _, hm⟩ := f.ptr hp
      refine ⟨{ h with mem := fun b => if b = a then none else h.mem b }, by simp only [CppHeap.delete, hm], rfl, rfl, ?_, ?_⟩
      · intro b hb
        have : b ≠ a := fun e => hb (by rw [e])
        simp [this]
      · intro b
        by_cases e : b = a <;> simp [e]
  refine ⟨h1, _, hd, by unfold CppHeap.replace; rw [hd], rfl, hm1, ?_⟩
  have hnx : ∀ b, h1.next ≤ b → h1.mem b = none := by
    intro b hb
    rcases hm1' b with h | h
    · exact h
    · rw [h]; exact f.fresh b (by rw [← hn1]; exact hb)
  -- addresses in use are old
  have low : ∀ y a, h.client y = some (some a) → a < h.next := by
    intro y a hy
    obtain ⟨_, _, _, hm⟩ := f.ptr hy
    apply Nat.lt_of_not_le
    intro hle
    rw [f.fresh a hle] at hm
    cases hm
  refine ⟨fun z => ?_, ?_, fun z t c' hz => ?_, fun z w t c1 t' c2 a hz hw hza hwa => ?_⟩
  · by_cases e : z = x
    · subst e
      simp only [Holders.put, CppHeap.put, CppHeap.alloc, if_true]
      exact ⟨h1.next, rfl, by simp⟩
    · simp only [Holders.put, CppHeap.put, CppHeap.alloc, if_neg e, hc1]
      have := f.shows z
      split at this
      · exact this
      · exact this
      · rename_i t c0 ho
        obtain ⟨a, h3, h4⟩ := this
        refine ⟨a, h3, ?_⟩
        have hlt := low z a h3
        have hne : a ≠ h1.next := by rw [hn1]; omega
        simp only [if_neg hne]
        rw [hm1 a ?_]
        · exact h4
        · rintro rfl
          -- `x` and `z` would share
          obtain ⟨t', c', hox, hm⟩ := f.ptr hp
          have := f.same x z _ _ _ _ a hox ho hp h3
          cases this
          exact hs z _ e hox ho
  · intro b hb
    simp only [CppHeap.put, CppHeap.alloc] at hb ⊢
    rw [if_neg (by omega)]
    exact hnx b (by omega)
  · by_cases e : z = x
    · subst e
      simp only [Holders.put, if_true] at hz
      cases hz
      omega
    · simp only [Holders.put, if_neg e] at hz
      exact Nat.lt_succ_of_lt (f.young z t c' hz)
  · simp only [Holders.put, CppHeap.put, CppHeap.alloc, hc1] at hz hw hza hwa
    by_cases ez : z = x <;> by_cases ew : w = x
    · simp only [ez, ew, if_true] at hz hw
      rw [hz] at hw; cases hw; rfl
    · simp only [if_pos ez] at hza
      simp only [if_neg ew] at hwa
      cases hza
      have := low w _ hwa
      rw [hn1] at this
      omega
    · simp only [if_pos ew] at hwa
      simp only [if_neg ez] at hza
      cases hwa
      have := low z _ hza
      rw [hn1] at this
      omega
    · simp only [if_neg ez, if_neg ew] at hz hw hza hwa
      exact f.same z w _ _ _ _ a hz hw hza hwa

theorem fits_step {n : Nat} {h : CppHeap} {o : Holders} (f : Fits n h o) (op : CppOp) (hc : Careful o op) :
    ∃ h', cppStep h op = .ok h' ∧ Fits (n + 1) h' (expected n o op) := by
  have taking : ∀ x y, o y ≠ none → ∀ p, h.client y = some p → Fits (n + 1) (h.put x (some p)) (o.put x (o y)) := by
    intro x y _ p hp
    exact (f.put x (.inr (.inr ⟨y, hp, rfl⟩))).later
  cases op with
  | construct x =>
    simp only [cppStep, expected]
    cases hx : h.client x with
    | none => rw [if_pos ((f.absent x).mp hx)]; exact ⟨_, rfl, (f.put x (.inr (.inl ⟨rfl, rfl⟩))).later⟩
    | some p => rw [if_neg fun e => by rw [(f.absent x).mpr e] at hx; cases hx]; exact ⟨_, rfl, f.later⟩
  | copy x y | move x y =>
    simp only [cppStep, expected]
    cases hx : h.client x with
    | none =>
      cases hy : h.client y with
      | none => rw [if_neg fun e => e.2 ((f.absent y).mp hy)]; exact ⟨_, rfl, f.later⟩
      | some p =>
        have hoy : o y ≠ none := fun e => by rw [(f.absent y).mpr e] at hy; cases hy
        rw [if_pos ⟨(f.absent x).mp hx, hoy⟩]
        exact ⟨_, rfl, taking x y hoy p hy⟩
    | some p => rw [if_neg fun e => by rw [(f.absent x).mpr e.1] at hx; cases hx]; exact ⟨_, rfl, f.later⟩
  | assign x y | moveAssign x y =>
    simp only [cppStep, expected]
    cases hx : h.client x with
    | none => rw [if_neg fun e => e.1 ((f.absent x).mp hx)]; exact ⟨_, rfl, f.later⟩
    | some q =>
      cases hy : h.client y with
      | none => rw [if_neg fun e => e.2 ((f.absent y).mp hy)]; exact ⟨_, rfl, f.later⟩
      | some p =>
        have hoy : o y ≠ none := fun e => by rw [(f.absent y).mpr e] at hy; cases hy
        have hox : o x ≠ none := fun e => by rw [(f.absent x).mpr e] at hx; cases hx
        rw [if_pos ⟨hox, hoy⟩]
        exact ⟨_, rfl, taking x y hoy p hy⟩
  | destroy x => exact ⟨_, rfl, (f.put x (.inl ⟨rfl, rfl⟩)).later⟩
  | setCredentials x c =>
    simp only [cppStep, expected]
    cases hx : h.client x with
    | none => rw [if_neg fun e => e ((f.absent x).mp hx)]; exact ⟨_, rfl, f.later⟩
    | some p =>
      rw [if_pos fun e => by rw [(f.absent x).mpr e] at hx; cases hx]
      obtain ⟨_, h', _, h2, _, _, h3⟩ := f.replace x hx hc c
      exact ⟨h', h2, h3⟩
  | setCredentialsFrom x y =>
    obtain ⟨hs, ha⟩ := hc
    simp only [cppStep, expected]
    cases hx : h.client x with
    | none => rw [(f.absent x).mp hx]; exact ⟨_, rfl, f.later⟩
    | some p =>
      cases hox : o x with
      | none => rw [(f.absent x).mpr hox] at hx; cases hx
      | some vx =>
        cases hy : h.client y with
        | none => rw [(f.absent y).mp hy]; exact ⟨_, rfl, f.later⟩
        | some q =>
          cases q with
          | none => rw [(f.null y).mp hy]; exact ⟨_, rfl, f.later⟩
          | some a =>
            obtain ⟨t, c, hoy, hm⟩ := f.ptr hy
            rw [hoy]
            obtain ⟨h1, h', hd, h2, he, h4, h3⟩ := f.replace x hx hs c
            have hpa : p ≠ some a := by
              rintro rfl
              obtain ⟨t', c', hox', _⟩ := f.ptr hx
              have e := f.same x y _ _ _ _ a hox' hoy hx hy
              cases e
              by_cases exy : y = x
              · exact ha exy.symm _ hox'
              · exact hs y _ exy hox' hoy
            refine ⟨h', ?_, h3⟩
            simp only [CppHeap.replaceFrom, CppHeap.load, hm, hd, h4 a hpa, he]
  | read x =>
    simp only [cppStep, expected]
    cases hx : h.client x with
    | none => exact ⟨_, rfl, f.later⟩
    | some p =>
      cases p with
      | none => exact ⟨_, rfl, f.later⟩
      | some a =>
        obtain ⟨t, c, _, hm⟩ := f.ptr hx
        simp only [CppHeap.load, hm]
        exact ⟨_, rfl, f.later⟩

theorem fits_run {n : Nat} {h : CppHeap} {o : Holders} (f : Fits n h o) (ops : List CppOp) (hc : CarefulRun n o ops) :
    ∃ h', cppRun h ops = .ok h' ∧ ∃ n', Fits n' h' (expectedRun n o ops) := by
  induction ops generalizing n h o with
  | nil => exact ⟨h, rfl, n, f⟩
  | cons op ops ih =>
    obtain ⟨h1, h2, h3⟩ := fits_step f op hc.1
    obtain ⟨h', h4, h5⟩ := ih h3 hc.2
    exact ⟨h', by unfold cppRun; rw [h2]; exact h4, h5⟩

theorem fits_empty : Fits 0 .empty noHolders where
  shows := fun _ => rfl
  fresh := fun _ _ => rfl
  young := by intro _ _ _ h; cases h
  same := by intro _ _ _ _ _ _ _ h; cases h

/-- **C23, partial.** A program on any number of cpp clients that replaces credentials only in clients which do not share them
with a copy, and never gives a client its own credentials, deletes nothing twice and reads nothing deleted, and every client shows
the credentials it was given last or took over from another. Missing: all programs (`C23_double_delete`, `C23_own_credentials`). -/
theorem C23_careful_programs_partial (ops : List CppOp) (hc : CarefulRun 0 noHolders ops) :
    ∃ h, cppRun .empty ops = .ok h ∧ ShowsAll h (expectedRun 0 noHolders ops) :=
  let ⟨h, hr, _, f⟩ := fits_run fits_empty ops hc
  ⟨h, hr, f.shows⟩

theorem cppRun_append (h : CppHeap) (ops ops' : List CppOp) :
    cppRun h (ops ++ ops') = match cppRun h ops with | .error e => .error e | .ok h' => cppRun h' ops' := by
  induction ops generalizing h with
  | nil => rfl
  | cons o ops ih =>
    rw [List.cons_append]
    simp only [cppRun]
    cases cppStep h o with
    | error e => rfl
    | ok h1 => exact ih h1

/-- **C23, refuted.** After any careful program, if a client has credentials, then copying or moving it and giving new credentials
to both deletes an object twice; and reading the other's credentials after one was changed reads a deleted object. -/
theorem C23_double_delete (ops : List CppOp) (hc : CarefulRun 0 noHolders ops) (x y : Nat) (v : Nat × Credential) (c c' : Credential)
    (hx : expectedRun 0 noHolders ops x = some (some v)) (hy : expectedRun 0 noHolders ops y = none) (op : CppOp)
    (ho : op = .copy y x ∨ op = .move y x) :
    cppRun .empty (ops ++ [op, .setCredentials x c, .setCredentials y c']) = .error .doubleFree ∧
    cppRun .empty (ops ++ [op, .setCredentials x c, .read y]) = .error .deadRead := by
  obtain ⟨h, hr, n, f⟩ := fits_run (n := 0) (h := .empty) (o := noHolders) fits_empty ops hc
  rw [cppRun_append, cppRun_append, hr]
  have hs := f.shows x
  rw [hx] at hs
  obtain ⟨a, hx, hm⟩ := hs
  have hy := (f.absent y).mpr hy
  have hxa : a < h.next := Nat.lt_of_not_le fun hle => by rw [f.fresh a hle] at hm; cases hm
  have hxy : y ≠ x := fun e => by rw [e, hx] at hy; cases hy
  have h1 : cppStep h op = .ok (h.put y (some (some a))) := by
    rcases ho with rfl | rfl <;> simp only [cppStep, hx, hy]
  have hne : a ≠ h.next := by omega
  have h2 : cppStep (h.put y (some (some a))) (.setCredentials x c) =
      .ok ({ mem := fun b => if b = h.next then some c else if b = a then none else h.mem b, next := h.next + 1,
             client := fun z => if z = x then some (some h.next) else if z = y then some (some a) else h.client z } : CppHeap) := by
    simp only [cppStep, CppHeap.put, hxy.symm, if_false, hx, CppHeap.replace, CppHeap.delete, hm, CppHeap.alloc]
  simp only [cppRun, h1, h2]
  simp only [cppStep, hxy, if_false, if_true, CppHeap.replace, CppHeap.delete, CppHeap.load, hne, and_self]

/-- **C23, refuted.** Giving a client its own credentials reads a deleted object, whatever the state. -/
theorem C23_own_credentials (h : CppHeap) (x a : Nat) (hx : h.client x = some (some a)) : ∃ e, cppStep h (.setCredentialsFrom x x) = .error e := by
  unfold cppStep
  simp only [hx, CppHeap.replaceFrom, CppHeap.load, CppHeap.delete]
  cases hm : h.mem a with
  | none => exact ⟨_, rfl⟩
  | some c => simp

/-- Non-vacuity: two clients, copying before credentials are given, credentials replaced and passed on; the careful use is
possible also with a shared credential that is only read. -/
def cred1 : Credential := { username := b!"u", password := b!"p" }
def cred2 : Credential := { username := b!"v", password := b!"q" }

example : ∃ h, cppRun .empty [.construct 0, .copy 1 0, .setCredentials 0 cred1, .setCredentials 1 cred2, .setCredentials 0 cred2,
    .setCredentialsFrom 1 0, .copy 2 1, .read 2, .destroy 1, .setCredentials 2 cred1, .read 2, .read 0] = .ok h ∧
    ShowsAll h (expectedRun 0 noHolders [.construct 0, .copy 1 0, .setCredentials 0 cred1, .setCredentials 1 cred2, .setCredentials 0 cred2,
    .setCredentialsFrom 1 0, .copy 2 1, .read 2, .destroy 1, .setCredentials 2 cred1, .read 2, .read 0]) := by
  refine C23_careful_programs_partial _ ?_
  have key : ∀ (o : Holders) x, (∀ k, o (k + 3) = none) → (∀ y ∈ [0, 1, 2], y ≠ x → o x = none ∨ o x = some none ∨ o y ≠ o x) → NotShared o x := by
    intro o x h3 h y v hne h1 h2
    by_cases hy : y < 3
    · have : y ∈ [0, 1, 2] := by simp; omega
      rcases h y this hne with h | h | h
      · rw [h] at h1; cases h1
      · rw [h] at h1; cases h1
      · exact h (h2.trans h1.symm)
    · have := h3 (y - 3)
      rw [show y - 3 + 3 = y by omega] at this
      rw [this] at h2; cases h2
  refine ⟨trivial, trivial, key _ _ (fun _ => rfl) (by decide), key _ _ (fun _ => rfl) (by decide), key _ _ (fun _ => rfl) (by decide),
    ⟨key _ _ (fun _ => rfl) (by decide), nofun⟩, trivial, trivial, trivial, key _ _ (fun _ => rfl) (by decide), trivial, trivial, trivial⟩

/-- … and the shortest harmful program. -/
example : (match cppRun .empty [.construct 0, .setCredentials 0 cred1, .copy 1 0, .setCredentials 0 cred2, .setCredentials 1 cred2] with
    | .error e => some e
    | .ok _ => none) = some .doubleFree := by decide +kernel

end Verif.Props
