import Verif.Proofs.Sockets
import Verif.Spec.Ownership
/-!
# One owner per connection
-/
namespace Verif.Proofs
open Verif Verif.Model Verif.Spec

variable {env : Env}

/-- The invariant of programs. -/
structure Owners (w : Objects) : Prop where
  closes : ClosesOpen w.hist
  frees : FreesOnce w.hist
  books : Booked w.hist
  own : ∀ i c, w.get i = some c → (c.sock ≠ 0 → c.sock ∈ openSockets w.hist ∨ c.sock = -1) ∧
    (∀ b, c.bio = some b → b.id < w.hist.length ∧ .bioFree b.id ∉ w.hist)
  excl : Exclusive w

theorem Objects.get_append (w : Objects) (c : Client) (i : Nat) (d : Client)
    (h : ({ w with clients := w.clients ++ [some c] } : Objects).get i = some d) : w.get i = some d ∨ (i = w.clients.length ∧ d = c) := by
  unfold Objects.get at *
  simp only at h
  by_cases hi : i < w.clients.length
  · rw [List.getElem?_append_left hi] at h
    exact .inl h
  · by_cases hi' : i = w.clients.length
    · subst hi'
      simp at h
      exact .inr ⟨rfl, h.symm⟩
    · rw [List.getElem?_eq_none (by simp; omega)] at h
      cases h

theorem get_set (l : List (Option Client)) (h : Hist) (i j : Nat) (x : Option Client) (d : Client)
    (hg : (Objects.mk (l.set i x) h).get j = some d) : (i = j ∧ x = some d) ∨ (i ≠ j ∧ (Objects.mk l h).get j = some d) := by
  unfold Objects.get at *
  simp only at *
  by_cases hij : i = j
  · subst hij
    by_cases hl : i < l.length
    · rw [List.getElem?_set_self hl] at hg
      exact .inl ⟨rfl, by simpa using hg⟩
    · rw [List.getElem?_eq_none (by simpa using hl)] at hg
      cases hg
  · rw [List.getElem?_set_ne hij] at hg
    exact .inr ⟨hij, hg⟩

theorem get_length {w : Objects} {i : Nat} {c : Client} (h : w.get i = some c) : i < w.clients.length := by
  unfold Objects.get at h
  by_cases hi : i < w.clients.length
  · exact hi
  · rw [List.getElem?_eq_none (by omega)] at h; cases h

/-- The sockets of the other objects. -/
def othersSockets (w : Objects) (i : Nat) (fd : Int) : Prop := 0 < fd ∧ ∃ j c, j ≠ i ∧ w.get j = some c ∧ c.sock = fd

/-- The TLS connections of the other objects. -/
def othersBios (w : Objects) (i : Nat) (id : Nat) : Prop := ∃ j c b, j ≠ i ∧ w.get j = some c ∧ c.bio = some b ∧ b.id = id

theorem Owners.mine {w : Objects} (h : Owners w) {i : Nat} {c : Client} (hi : w.get i = some c) :
    Mine (othersSockets w i) (othersBios w i) { client := c, hist := w.hist } where
  own := (h.own i c hi).1
  closes := h.closes
  others := by
    rintro fd ⟨h0, j, d, hj, hd, rfl⟩
    refine ⟨((h.own j d hd).1 (by omega)).resolve_right (by omega), (h.excl j i d c hj hd hi).1 h0⟩
  bio := (h.own i c hi).2
  frees := h.frees
  bios := by
    rintro id ⟨j, d, b, hj, hd, hb, rfl⟩
    refine ⟨((h.own j d hd).2 b hb).1, ((h.own j d hd).2 b hb).2, ?_⟩
    intro b' hb' he
    exact (h.excl j i d c hj hd hi).2 b b' hb hb' he.symm
  books := h.books

/-- After object `i` did something. -/
theorem Owners.step {w : Objects} (h : Owners w) {i : Nat} {s : St} (hm : Mine (othersSockets w i) (othersBios w i) s) (x : Option Client)
    (hx : ∀ d, x = some d → d = s.client) : Owners { clients := w.clients.set i x, hist := s.hist } where
  closes := hm.closes
  frees := hm.frees
  books := hm.books
  own := by
    intro j c hj
    rcases get_set w.clients s.hist i j x c hj with ⟨_, hxc⟩ | ⟨hij, hj⟩
    · rw [hx c hxc]
      exact ⟨hm.own, hm.bio⟩
    · have hj : w.get j = some c := hj
      have ho := h.own j c hj
      refine ⟨fun h0 => ?_, fun b hb => ?_⟩
      · rcases ho.1 h0 with h1 | h1
        · have := openSockets_nonneg _ _ h1
          exact .inl (hm.others c.sock ⟨by omega, j, c, fun h => hij h.symm, hj, rfl⟩).1
        · exact .inr h1
      · have := hm.bios b.id ⟨j, c, b, fun h => hij h.symm, hj, hb, rfl⟩
        exact ⟨this.1, this.2.1⟩
  excl := by
    intro j k c d hjk hj hk
    rcases get_set w.clients s.hist i j x c hj with ⟨hij, hxc⟩ | ⟨hij, hj⟩
    · rcases get_set w.clients s.hist i k x d hk with ⟨hik, _⟩ | ⟨hik, hk⟩
      · omega
      · rw [hx c hxc]
        have hk : w.get k = some d := hk
        refine ⟨fun h0 he => ?_, fun b b' hb hb' he => ?_⟩
        · exact (hm.others d.sock ⟨by omega, k, d, fun h => hik h.symm, hk, rfl⟩).2 he.symm
        · exact (hm.bios b'.id ⟨k, d, b', fun h => hik h.symm, hk, hb', rfl⟩).2.2 b hb he
    · have hj : w.get j = some c := hj
      rcases get_set w.clients s.hist i k x d hk with ⟨hik, hxd⟩ | ⟨hik, hk⟩
      · rw [hx d hxd]
        refine ⟨fun h0 => ?_, fun b b' hb hb' he => ?_⟩
        · exact (hm.others c.sock ⟨h0, j, c, fun h => hij h.symm, hj, rfl⟩).2
        · exact (hm.bios b.id ⟨j, c, b, fun h => hij h.symm, hj, hb, rfl⟩).2.2 b' hb' he.symm
      · exact h.excl j k c d hjk hj hk

/-- A new object without a connection. -/
theorem Owners.add {w : Objects} (h : Owners w) {c : Client} (hs : c.sock = 0) (hb : c.bio = none) :
    Owners { w with clients := w.clients ++ [some c] } where
  closes := h.closes
  frees := h.frees
  books := h.books
  own := by
    intro i d hi
    rcases Objects.get_append w c i d hi with hi | ⟨_, rfl⟩
    · exact h.own i d hi
    · exact ⟨fun h0 => absurd hs h0, fun b hb' => by rw [hb] at hb'; cases hb'⟩
  excl := by
    intro i j d e hij hi hj
    rcases Objects.get_append w c i d hi with hi | ⟨h1, rfl⟩
    · rcases Objects.get_append w c j e hj with hj | ⟨_, rfl⟩
      · exact h.excl i j d e hij hi hj
      · exact ⟨fun h0 he => by rw [hs] at he; omega, fun b b' _ hb' => by rw [hb] at hb'; cases hb'⟩
    · rcases Objects.get_append w d j e hj with hj | ⟨h2, _⟩
      · exact ⟨fun h0 => by rw [hs] at h0; omega, fun b b' hb' => by rw [hb] at hb'; cases hb'⟩
      · omega

/-- An object loses its connection. -/
theorem Owners.drop {w : Objects} (h : Owners w) {i : Nat} {c : Client} (hs : c.sock = 0) (hb : c.bio = none) :
    Owners { w with clients := w.clients.set i (some c) } where
  closes := h.closes
  frees := h.frees
  books := h.books
  own := by
    intro j d hj
    rcases get_set w.clients w.hist i j _ d hj with ⟨_, hx⟩ | ⟨_, hj⟩
    · injection hx with hx
      subst hx
      exact ⟨fun h0 => absurd hs h0, fun b hb' => by rw [hb] at hb'; cases hb'⟩
    · exact h.own j d hj
  excl := by
    intro j k d e hjk hj hk
    rcases get_set w.clients w.hist i j _ d hj with ⟨_, hx⟩ | ⟨_, hj⟩
    · injection hx with hx
      subst hx
      exact ⟨fun h0 => by rw [hs] at h0; omega, fun b b' hb' => by rw [hb] at hb'; cases hb'⟩
    · rcases get_set w.clients w.hist i k _ e hk with ⟨_, hx⟩ | ⟨_, hk⟩
      · injection hx with hx
        subst hx
        exact ⟨fun h0 he => by rw [hs] at he; omega, fun b b' _ hb' => by rw [hb] at hb'; cases hb'⟩
      · exact h.excl j k d e hjk hj hk

/-- A connection changes hands: the giver `i` holds nothing any more, the taker has what it had. -/
theorem Owners.give {w : Objects} (h : Owners w) {i k : Nat} {c t : Client} (hi : w.get i = some c) (hc : t.sock = c.sock) (hb : t.bio = c.bio)
    {w' : Objects} (hh : w'.hist = w.hist)
    (hw : ∀ j d, w'.get j = some d → (j = k ∧ d = t) ∨ (j ≠ k ∧ j = i ∧ d.sock = 0 ∧ d.bio = none) ∨ (j ≠ k ∧ j ≠ i ∧ w.get j = some d)) : Owners w' where
  closes := by rw [hh]; exact h.closes
  frees := by rw [hh]; exact h.frees
  books := by rw [hh]; exact h.books
  own := by
    intro j d hj
    rw [hh]
    rcases hw j d hj with ⟨_, rfl⟩ | ⟨_, _, hs, hb'⟩ | ⟨_, _, hj⟩
    · rw [hc, hb]; exact h.own i c hi
    · exact ⟨fun h0 => absurd hs h0, fun b hb => by rw [hb'] at hb; cases hb⟩
    · exact h.own j d hj
  excl := by
    intro j j' d e hjj hj hj'
    rcases hw j d hj with ⟨h1, rfl⟩ | ⟨_, h1, hs, hb'⟩ | ⟨h1, h1', hg⟩
    · rcases hw j' e hj' with ⟨h2, _⟩ | ⟨_, _, hs, hb'⟩ | ⟨_, h3, hg⟩
      · omega
      · exact ⟨fun h0 he => by rw [hs] at he; omega, fun b b' _ hb => by rw [hb'] at hb; cases hb⟩
      · rw [hc, hb]
        exact h.excl i j' c e (fun h => h3 h.symm) hi hg
    · exact ⟨fun h0 => by rw [hs] at h0; omega, fun b b' hb => by rw [hb'] at hb; cases hb⟩
    · rcases hw j' e hj' with ⟨h2, rfl⟩ | ⟨_, _, hs, hb'⟩ | ⟨_, _, hg'⟩
      · rw [hc, hb]
        exact h.excl j i d c h1' hg hi
      · exact ⟨fun h0 he => by rw [hs] at he; omega, fun b b' _ hb => by rw [hb'] at hb; cases hb⟩
      · exact h.excl j j' d e hjj hg hg'

theorem copied_none {c c' : Client} (h : c.copied = .ok c') : HoldsNone c' := by
  unfold Client.copied at h
  split at h
  · cases h
  · injection h with h
    subst h
    exact ⟨rfl, rfl, rfl, rfl⟩

theorem movedFrom_none (c : Client) : HoldsNone c.movedFrom := ⟨rfl, rfl, rfl, rfl⟩

theorem objStep_owners (hv : FreshSockets env) (op : ObjOp) {w : Objects} (h : Owners w) : Owners (objStep op env w).2 := by
  have hF : ∀ (w : Objects) i fd, othersSockets w i fd → 0 < fd := fun _ _ _ h => h.1
  cases op with
  | create k name port =>
    unfold objStep
    dsimp only
    split
    · next c hc =>
      refine h.add ?_ ?_ <;>
      · unfold Client.new at hc
        split at hc
        · cases hc
        · injection hc with hc
          subst hc
          rfl
    · exact h
    · exact h
  | copy i =>
    unfold objStep
    dsimp only
    split
    · exact h
    · split
      · exact h
      · next hc => exact h.add (copied_none hc).sock (copied_none hc).bio
  | move i =>
    unfold objStep
    dsimp only
    split
    · exact h
    · next c hc =>
      have hl := get_length hc
      refine h.give (k := w.clients.length) hc (t := c.moved) rfl rfl rfl ?_
      intro j d hj
      rcases Objects.get_append { w with clients := w.clients.set i (some c.movedFrom) } c.moved j d hj with hj | ⟨h1, h2⟩
      · have hlj := get_length hj
        simp only [List.length_set] at hlj
        rcases get_set w.clients w.hist i j _ d hj with ⟨hij, hx⟩ | ⟨hij, hj⟩
        · injection hx with hx
          subst hx
          exact .inr (.inl ⟨by omega, hij.symm, rfl, rfl⟩)
        · exact .inr (.inr ⟨by omega, fun h => hij h.symm, hj⟩)
      · simp only [List.length_set] at h1
        exact .inl ⟨h1, h2⟩
  | assign i j =>
    unfold objStep
    dsimp only
    split
    · split
      · exact h
      · split
        · exact h
        · next hc => exact h.drop (copied_none hc).sock (copied_none hc).bio
    · exact h
  | moveAssign i j =>
    unfold objStep
    dsimp only
    split
    · next d c hd hc =>
      split
      · exact h
      · next hn =>
        have hij : i ≠ j := fun h => hn (.inl h)
        refine h.give (k := i) hc (t := c.moved) rfl rfl rfl ?_
        intro k e hk
        rcases get_set _ w.hist j k _ e hk with ⟨hjk, hx⟩ | ⟨hjk, hk⟩
        · injection hx with hx
          subst hx
          exact .inr (.inl ⟨by omega, hjk.symm, rfl, rfl⟩)
        · rcases get_set _ w.hist i k _ e hk with ⟨hik, hx⟩ | ⟨hik, hk⟩
          · injection hx with hx
            exact .inl ⟨hik.symm, hx.symm⟩
          · exact .inr (.inr ⟨fun h => hik h.symm, fun h => hjk h.symm, hk⟩)
    · exact h
  | call i c =>
    unfold objStep
    dsimp only
    split
    · exact h
    · next cl hc =>
      have hm := state_of ((mine_calls (hF w i) hv).doCall c trivial _ (h.mine hc))
      cases hr : doCall c env { client := cl, hist := w.hist } with
      | mk r s =>
        rw [hr] at hm
        cases r <;> exact h.step hm _ (fun d hd => by injection hd with hd; exact hd.symm)
  | destroy i =>
    unfold objStep
    dsimp only
    split
    · exact h
    · next cl hc =>
      have hm := mine_destroy (env := env) (hF w i) (h.mine hc)
      cases hr : Model.destroy env { client := cl, hist := w.hist } with
      | mk r s =>
        rw [hr] at hm
        cases r with
        | ok a => exact h.step hm none (fun d hd => by cases hd)
        | stop e => exact h.step hm _ (fun d hd => by injection hd with hd; exact hd.symm)

theorem objRun_owners (hv : FreshSockets env) (ops : List ObjOp) {w : Objects} (h : Owners w) : Owners (objRun ops env w).2 := by
  induction ops generalizing w with
  | nil => exact h
  | cons op ops ih =>
    unfold objRun
    have h1 := objStep_owners hv op h
    cases hr : objStep op env w with
    | mk r w' =>
      rw [hr] at h1
      cases r with
      | ok a => exact ih h1
      | stop e => exact h1

theorem owners_empty : Owners .empty where
  closes := by intro a b fd h; simp [Objects.empty] at h
  frees := by intro a b fd h; simp [Objects.empty] at h
  books := by intro fd _; rfl
  own := by intro i c h; cases h
  excl := by intro i j c d _ h; cases h

end Verif.Proofs
