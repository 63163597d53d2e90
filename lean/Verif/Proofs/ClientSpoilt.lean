import Verif.Proofs.ClientScarce
/-!
# Clients that a failed allocation spoilt

A block that was deleted does not come back: whatever the program does afterwards, the destructor of a client that still points to it breaks the rules.
-/
namespace Verif.Proofs
open Verif Verif.Model Verif.Spec

variable {ε ε' α β : Type}

/-! ### Programs in two parts -/

theorem tryRun_split {g : Nat → Bool} (ops : List COp) (o o' : Clients) (st : Nat × Heap) (h : Heap) (e : (tryRun g o st ops).2 = .ok (o', h)) :
    ∃ n, ∀ more, tryRun g o st (ops ++ more) = ((tryRun g o st ops).1 ++ (tryRun g o' (n, h) more).1, (tryRun g o' (n, h) more).2) := by
  induction ops generalizing o st with
  | nil =>
    cases e
    exact ⟨st.1, fun more => rfl⟩
  | cons p ps ih =>
    simp only [tryRun, List.cons_append] at e ⊢
    cases es : tryStep o p g st with
    | error x => rw [es] at e; cases e
    | ok r =>
      obtain ⟨q, st1⟩ := r
      rw [es] at e
      cases q with
      | ok o1 =>
        obtain ⟨n, hn⟩ := ih o1 st1 e
        exact ⟨n, fun more => by simp only [hn more, List.cons_append]⟩
      | error o1 =>
        obtain ⟨n, hn⟩ := ih o1 st1 e
        exact ⟨n, fun more => by simp only [hn more, List.cons_append]⟩

/-! ### What is gone stays gone -/

/-- There was a block, and it is no longer there. -/
def Gone (a : Nat) (h : Heap) : Prop := h.mem a = none ∧ a < h.next

/-- Brings nothing back. -/
def Buries (p : H α) : Prop := ∀ a h x h', Gone a h → p h = .ok (x, h') → Gone a h'

/-- The same for programs that may run out of memory. -/
def BuriesA (m : Attempt ε α) : Prop := ∀ a g st q st', Gone a st.2 → m g st = .ok (q, st') → Gone a st'.2

theorem Buries.pure (x : α) : Buries (Pure.pure x : H α) := by
  intro a h y h' hg e
  cases e
  exact hg

theorem Buries.fail (x : MemErr) : Buries (failH x : H α) := fun _ _ _ _ _ e => by cases e

theorem Buries.bind {p : H α} {f : α → H β} (h1 : Buries p) (h2 : ∀ x, Buries (f x)) : Buries (p >>= f) := by
  intro a h y h' hg e
  cases ep : p h with
  | error x => rw [bindH_error ep] at e; cases e
  | ok r =>
    rw [bind_ok (a := r.1) (h' := r.2) ep] at e
    exact h2 _ a _ _ _ (h1 a _ _ _ hg ep) e

theorem Buries.alloc (b : Block) : Buries (alloc b) := by
  intro a h y h' hg e
  cases e
  refine ⟨?_, Nat.lt_succ_of_lt hg.2⟩
  dsimp only
  rw [if_neg (Nat.ne_of_lt hg.2)]
  exact hg.1

theorem Buries.release (b : Nat) : Buries (release b) := by
  intro a h y h' hg e
  cases e
  exact ⟨by dsimp only; split <;> first | rfl | exact hg.1, hg.2⟩

theorem Buries.deleteArray (p : Ptr) : Buries (deleteArray p) := by
  intro a h y h' hg e
  cases p with
  | none => cases e; exact hg
  | some b =>
    simp only [Model.deleteArray] at e
    split at e
    · exact Buries.release b a _ _ _ hg e
    · exact Buries.release b a _ _ _ hg e
    · cases e
    · cases e

theorem Buries.readText (p : Ptr) : Buries (readText p) := by
  intro a h y h' hg e
  rw [readText_heap e]
  exact hg

theorem Buries.readObject (p : Ptr) : Buries (readObject p) := by
  intro a h y h' hg e
  cases p with
  | none => cases e
  | some b =>
    simp only [Model.readObject] at e
    split at e
    · cases e; exact hg
    · cases e
    · cases e

theorem Buries.writeText (p : Ptr) (s : Bytes) : Buries (writeText p s) := by
  intro a h y h' hg e
  cases p with
  | none => cases e
  | some b =>
    simp only [Model.writeText] at e
    split at e
    · rename_i hb
      cases e
      refine ⟨?_, hg.2⟩
      dsimp only
      split
      · rename_i hab
        subst hab
        rw [hg.1] at hb
        cases hb
      · exact hg.1
    · cases e
    · cases e

theorem Buries.deleteFields (ps : List Ptr) : Buries (deleteFields ps) := by
  induction ps with
  | nil => exact .pure _
  | cons p ps ih => exact (Buries.deleteArray p).bind fun _ => ih

theorem Buries.deleteObject (p : Ptr) : Buries (deleteObject p) := by
  cases p with
  | none => exact .pure _
  | some a => exact (Buries.readObject _).bind fun _ => (Buries.deleteFields _).bind fun _ => .release _

theorem Buries.destroy (c : ClientObj) : Buries c.destroy :=
  (Buries.deleteArray _).bind fun _ => (Buries.deleteArray _).bind fun _ => (Buries.deleteArray _).bind fun _ => (Buries.deleteObject _).bind fun _ => .deleteObject _

theorem Buries.readName (o : Clients) (t : NameArg) : Buries (readName o t) := by
  cases t with
  | text s => exact .pure _
  | nameOf x =>
    simp only [Model.readName]
    cases o x with
    | none => exact .fail _
    | some v => exact .readText _
  | logOf x =>
    simp only [Model.readName]
    cases o x with
    | none => exact .fail _
    | some v =>
      dsimp only
      split
      · exact .pure _
      · exact .readText _

theorem BuriesA.pure (x : α) : BuriesA (Pure.pure x : Attempt ε α) := by
  intro a g st q st' hg e
  cases e
  exact hg

theorem BuriesA.calm {p : H α} (hp : Buries p) : BuriesA (Model.calm p : Attempt ε α) := by
  intro a g st q st' hg e
  cases ep : p st.2 with
  | error x => simp only [Model.calm, ep] at e; cases e
  | ok r =>
    simp only [Model.calm, ep] at e
    cases e
    exact hp a _ _ _ hg ep

theorem BuriesA.room (l : ε) : BuriesA (room l) := by
  intro a g st q st' hg e
  simp only [Model.room] at e
  split at e <;> (cases e; exact hg)

theorem BuriesA.bind {m : Attempt ε α} {f : α → Attempt ε β} (h1 : BuriesA m) (h2 : ∀ x, BuriesA (f x)) : BuriesA (m >>= f) := by
  intro a g st q st' hg e
  cases em : m g st with
  | error x => rw [bindA_error em] at e; cases e
  | ok r =>
    obtain ⟨y, st1⟩ := r
    have h := h1 a g st _ _ hg em
    cases y with
    | ok y =>
      rw [bindA_ok em] at e
      exact h2 _ a g _ _ _ h e
    | error y =>
      rw [bindA_left em] at e
      cases e
      exact h

theorem BuriesA.mapLeft {m : Attempt ε α} (f : ε → ε') (h1 : BuriesA m) : BuriesA (mapLeft f m) := by
  intro a g st q st' hg e
  cases em : m g st with
  | error x => simp only [Model.mapLeft, em] at e; cases e
  | ok r =>
    obtain ⟨y, st1⟩ := r
    have h := h1 a g st _ _ hg em
    cases y <;> (simp only [Model.mapLeft, em] at e; cases e; exact h)

theorem tryAlloc_buries (l : ε) (b : Block) : BuriesA (tryAlloc l b) := (BuriesA.room l).bind fun _ => .calm (.alloc b)

theorem tryCopyText_buries (l : ε) (p : Ptr) : BuriesA (tryCopyText l p) := (BuriesA.calm (.readText p)).bind fun _ => (tryAlloc_buries l _).bind fun _ => .pure _

theorem tryCopyTextIfSet_buries (l : ε) (p : Ptr) : BuriesA (tryCopyTextIfSet l p) := by
  unfold tryCopyTextIfSet
  split
  · exact .pure _
  · exact tryCopyText_buries l p

theorem tryCopyFields_buries (l : ε) (ps : List Ptr) : BuriesA (tryCopyFields l ps) := by
  induction ps with
  | nil => exact .pure _
  | cons p ps ih => exact (tryCopyText_buries l p).bind fun _ => ih.bind fun _ => .pure _

theorem tryCopyObject_buries (l : ε) (p : Ptr) : BuriesA (tryCopyObject l p) :=
  (BuriesA.calm (.readObject p)).bind fun _ => (BuriesA.room l).bind fun _ => (tryCopyFields_buries l _).bind fun _ => (BuriesA.calm (.alloc _)).bind fun _ => .pure _

theorem tryCopyObjectIfSet_buries (l : ε) (p : Ptr) : BuriesA (tryCopyObjectIfSet l p) := by
  unfold tryCopyObjectIfSet
  split
  · exact .pure _
  · exact tryCopyObject_buries l p

theorem tryNewFields_buries (l : ε) (ss : List Bytes) : BuriesA (tryNewFields l ss) := by
  induction ss with
  | nil => exact .pure _
  | cons s ss ih => exact (tryAlloc_buries l _).bind fun _ => ih.bind fun _ => .pure _

theorem tryCopyCredential_buries (l : ε) (o : Clients) (t : CredArg) : BuriesA (tryCopyCredential l o t) := by
  cases t with
  | texts u p => exact (BuriesA.room l).bind fun _ => (tryNewFields_buries l _).bind fun _ => (BuriesA.calm (.alloc _)).bind fun _ => .pure _
  | of x =>
    simp only [tryCopyCredential]
    cases o x with
    | none => exact .calm (.fail _)
    | some v => exact tryCopyObject_buries l _

theorem tryNewOptions_buries (l : ε) (s : Bytes) : BuriesA (tryNewOptions l s) := by
  unfold tryNewOptions
  refine (BuriesA.room l).bind fun _ => ?_
  split
  · exact (tryAlloc_buries l _).bind fun _ => (BuriesA.room l).bind fun _ => .pure _
  · exact .pure _

theorem tryExtractOptions_buries (l : ε) (fuel : Nat) (s : Bytes) (ret : Ptr) : BuriesA (tryExtractOptions l fuel s ret) := by
  induction fuel generalizing s ret with
  | zero => exact .pure _
  | succ fuel ih =>
    unfold tryExtractOptions
    cases findSub b!"\r\n" s with
    | none => exact .pure _
    | some i =>
      refine (tryNewOptions_buries l _).bind fun q => ?_
      split
      · exact .pure _
      · dsimp only
        split
        · exact (tryNewOptions_buries l _).bind fun _ => ih _ _
        · exact (BuriesA.pure _).bind fun _ => ih _ _

theorem trySession_buries (c : ClientObj) (q : SessionOp) : BuriesA (c.trySession q) := by
  cases q with
  | freshLog => exact (BuriesA.calm (.deleteArray _)).bind fun _ => (tryAlloc_buries _ _).bind fun _ => .pure _
  | log grow s =>
    refine (BuriesA.room _).bind fun _ => (BuriesA.calm (.readText _)).bind fun _ => ?_
    cases grow
    · exact (BuriesA.calm (.writeText _ _)).bind fun _ => .pure _
    · exact (tryAlloc_buries _ _).bind fun _ => (BuriesA.calm (.deleteArray _)).bind fun _ => .pure _
  | response s => exact (BuriesA.calm (.deleteArray _)).bind fun _ => (tryAlloc_buries _ _).bind fun _ => .pure _
  | options s => exact (BuriesA.room _).bind fun _ => (tryExtractOptions_buries _ _ _ _).bind fun _ => (BuriesA.calm (.deleteObject _)).bind fun _ => .pure _

theorem tryCopy_buries (l : ε) (c : ClientObj) : BuriesA (c.tryCopy l) :=
  (tryCopyText_buries l _).bind fun _ => (tryCopyTextIfSet_buries l _).bind fun _ => (tryCopyTextIfSet_buries l _).bind fun _ =>
    (tryCopyObjectIfSet_buries l _).bind fun _ => (tryCopyObjectIfSet_buries l _).bind fun _ => .pure _

theorem tryAssign_buries (c d : ClientObj) : BuriesA (c.tryAssign d) :=
  (BuriesA.calm (.deleteArray _)).bind fun _ => (tryCopyText_buries _ _).bind fun _ => (tryCopyTextIfSet_buries _ _).bind fun _ => (tryCopyTextIfSet_buries _ _).bind fun _ =>
    (BuriesA.calm (.deleteObject _)).bind fun _ => (tryCopyObjectIfSet_buries _ _).bind fun _ => (tryCopyObjectIfSet_buries _ _).bind fun _ => .pure _

theorem trySetName_buries (o : Clients) (c : ClientObj) (t : NameArg) : BuriesA (c.trySetName o t) :=
  (BuriesA.calm (.readName o t)).bind fun _ => (BuriesA.room _).bind fun _ => (BuriesA.calm (.deleteArray _)).bind fun _ =>
    (BuriesA.calm (.readName o t)).bind fun _ => (tryAlloc_buries _ _).bind fun _ => .pure _

/-- No operation brings back what is gone. -/
theorem tryStep_buries (o : Clients) (p : COp) : BuriesA (tryStep o p) := by
  cases p with
  | create x t => exact ((BuriesA.calm (.readName o t)).bind fun _ => (BuriesA.room _).bind fun _ => (tryAlloc_buries _ _).bind fun _ => .pure _).bind fun _ => .pure _
  | copy x y =>
    simp only [tryStep]
    cases o y with
    | none => exact .calm (.fail _)
    | some w => exact (tryCopy_buries o w).bind fun _ => .pure _
  | assign x y =>
    simp only [tryStep]
    cases o x with
    | none => exact .calm (.fail _)
    | some v =>
      cases o y with
      | none => exact .calm (.fail _)
      | some w =>
        dsimp only
        split
        · exact .pure _
        · exact ((tryAssign_buries v w).mapLeft _).bind fun _ => .pure _
  | setName x t =>
    simp only [tryStep]
    cases o x with
    | none => exact .calm (.fail _)
    | some v => exact ((trySetName_buries o v t).mapLeft _).bind fun _ => .pure _
  | setCredential x t =>
    simp only [tryStep]
    cases o x with
    | none => exact .calm (.fail _)
    | some v => exact (((BuriesA.calm (.deleteObject _)).bind fun _ => (tryCopyCredential_buries _ _ _).bind fun _ => .pure _).mapLeft _).bind fun _ => .pure _
  | session x q =>
    simp only [tryStep]
    cases o x with
    | none => exact .calm (.fail _)
    | some v => exact ((trySession_buries v q).mapLeft _).bind fun _ => .pure _
  | move x y =>
    simp only [tryStep, cstep]
    cases o y with
    | none => exact .calm (.fail _)
    | some w => exact .calm ((Buries.pure _).bind fun _ => .pure _)
  | moveAssign x y =>
    simp only [tryStep, cstep]
    cases o x with
    | none => exact .calm (.fail _)
    | some v =>
      cases o y with
      | none => exact .calm (.fail _)
      | some w =>
        dsimp only
        split
        · exact .calm (.pure _)
        · exact .calm (((Buries.destroy v).bind fun _ => .pure _).bind fun _ => .pure _)
  | destroy x =>
    simp only [tryStep, cstep]
    cases o x with
    | none => exact .calm (.fail _)
    | some v => exact .calm ((Buries.destroy v).bind fun _ => .pure _)

/-! ### Clients that point to what is gone -/

/-- The client still points to a block that is gone. -/
def Dangling (h : Heap) (c : ClientObj) : Prop := ∃ a, Gone a h ∧ (c.log = some a ∨ c.response = some a ∨ c.credential = some a)

theorem deleteArray_gone {a : Nat} {h : Heap} (ha : Gone a h) : deleteArray (some a) h = .error .doubleFree := by simp only [deleteArray, ha.1]

theorem deleteObject_gone {a : Nat} {h : Heap} (ha : Gone a h) : deleteObject (some a) h = .error .deadRead := by
  unfold deleteObject
  exact bindH_error (by simp only [readObject, ha.1])

/-- Its destructor breaks the rules. -/
theorem destroy_dangling {c : ClientObj} {h : Heap} (hc : Dangling h c) : ∃ e, c.destroy h = .error e := by
  obtain ⟨a, ha, hc⟩ := hc
  unfold ClientObj.destroy
  cases e1 : deleteArray c.name h with
  | error x => exact ⟨x, bindH_error e1⟩
  | ok r1 =>
    have ha := Buries.deleteArray _ a _ _ _ ha e1
    rw [bind_ok (a := r1.1) (h' := r1.2) e1]
    cases e2 : deleteArray c.log r1.2 with
    | error x => exact ⟨x, bindH_error e2⟩
    | ok r2 =>
      rcases hc with hc | hc
      · rw [hc, deleteArray_gone ha] at e2
        cases e2
      · have ha := Buries.deleteArray _ a _ _ _ ha e2
        rw [bind_ok (a := r2.1) (h' := r2.2) e2]
        cases e3 : deleteArray c.response r2.2 with
        | error x => exact ⟨x, bindH_error e3⟩
        | ok r3 =>
          rcases hc with hc | hc
          · rw [hc, deleteArray_gone ha] at e3
            cases e3
          · have ha := Buries.deleteArray _ a _ _ _ ha e3
            rw [bind_ok (a := r3.1) (h' := r3.2) e3]
            cases e4 : deleteObject c.auth r3.2 with
            | error x => exact ⟨x, bindH_error e4⟩
            | ok r4 =>
              have ha := Buries.deleteObject _ a _ _ _ ha e4
              rw [bind_ok (a := r4.1) (h' := r4.2) e4, hc, deleteObject_gone ha]
              exact ⟨_, rfl⟩

theorem setClient_off {o : Clients} {x y : Nat} {v : Option ClientObj} (h : y ≠ x) : setClient o x v y = o y := if_neg h

/-- What an attempt gives or leaves behind. -/
def Yields (m : Attempt ε α) (Q : α → Prop) (E : ε → Prop) : Prop := ∀ g st q st', m g st = .ok (q, st') →
  match q with
  | .ok a => Q a
  | .error l => E l

theorem Yields.pure {Q : α → Prop} {E : ε → Prop} {a : α} (h : Q a) : Yields (Pure.pure a) Q E := by
  intro g st q st' e
  cases e
  exact h

theorem Yields.calm {Q : α → Prop} {E : ε → Prop} {p : H α} (h : ∀ h a h', p h = .ok (a, h') → Q a) : Yields (Model.calm p) Q E := by
  intro g st q st' e
  cases ep : p st.2 with
  | error x => simp only [Model.calm, ep] at e; cases e
  | ok r =>
    simp only [Model.calm, ep] at e
    cases e
    exact h _ _ _ ep

theorem Yields.bind {m : Attempt ε α} {f : α → Attempt ε β} {Q : β → Prop} {E : ε → Prop} (h1 : Yields m (fun _ => True) E) (h2 : ∀ a, Yields (f a) Q E) :
    Yields (m >>= f) Q E := by
  intro g st q st' e
  cases em : m g st with
  | error x => rw [bindA_error em] at e; cases e
  | ok r =>
    obtain ⟨y, st1⟩ := r
    have h := h1 g st _ _ em
    cases y with
    | ok y =>
      rw [bindA_ok em] at e
      exact h2 _ g _ _ _ e
    | error y =>
      rw [bindA_left em] at e
      cases e
      exact h

theorem Yields.mapLeft {m : Attempt ε α} {f : ε → ε'} {E : ε' → Prop} (h : ∀ l, E (f l)) : Yields (mapLeft f m) (fun _ => True) E := by
  intro g st q st' e
  cases em : m g st with
  | error x => simp only [Model.mapLeft, em] at e; cases e
  | ok r =>
    obtain ⟨y, st1⟩ := r
    cases y <;> (simp only [Model.mapLeft, em] at e; cases e)
    · exact h _
    · trivial

theorem Growing.yields {l : ε} {m : Attempt ε α} {p : H α} (h : Growing l m p) : Yields m (fun _ => True) (· = l) := by
  intro g st q st' e
  have := h g st
  rw [e] at this
  cases q with
  | ok a => trivial
  | error l' => exact this.1

/-- An operation leaves the objects alone that it does not change. -/
theorem tryStep_yields (o : Clients) (p : COp) {x : Nat} (hx : x ∉ changes p) : Yields (tryStep o p) (fun o' => o' x = o x) (fun o' => o' x = o x) := by
  have one {y : Nat} {v : Option ClientObj} (h : x ∉ [y]) : setClient o y v x = o x := setClient_off fun e => h (by rw [e]; exact List.mem_cons_self ..)
  have two {y z : Nat} {v w : Option ClientObj} (h : x ∉ [y, z]) : setClient (setClient o z v) y w x = o x := by
    rw [setClient_off fun e => h (by rw [e]; exact List.mem_cons_self ..), setClient_off fun e => h (by rw [e]; exact List.mem_cons_of_mem _ (List.mem_cons_self ..))]
  have dead {Q E} : Yields (calm (failH .deadRead) : Attempt Clients Clients) Q E := Yields.calm fun _ _ _ e => by cases e
  have same {m : Attempt Clients ClientObj} {q : H ClientObj} (h : Growing o m q) : Yields m (fun _ => True) (fun o' => o' x = o x) := by
    intro g st q st' e
    have := h.yields g st q st' e
    cases q with
    | ok a => trivial
    | error l => exact congrFun this x
  cases p with
  | create y t => exact (same (tryConstruct_growing o o t)).bind fun _ => .pure (one hx)
  | copy y z =>
    simp only [tryStep]
    cases o z with
    | none => exact dead
    | some w => exact (same (tryCopy_growing o w)).bind fun _ => .pure (one hx)
  | assign y z =>
    simp only [tryStep]
    cases o y with
    | none => exact dead
    | some v =>
      cases o z with
      | none => exact dead
      | some w =>
        dsimp only
        split
        · exact .pure rfl
        · exact Yields.bind (Yields.mapLeft (E := fun o' : Clients => o' x = o x) fun _ => one hx) fun _ => Yields.pure (Q := fun o' : Clients => o' x = o x) (one hx)
  | setName y t =>
    simp only [tryStep]
    cases o y with
    | none => exact dead
    | some v => exact Yields.bind (Yields.mapLeft (E := fun o' : Clients => o' x = o x) fun _ => one hx) fun _ => Yields.pure (Q := fun o' : Clients => o' x = o x) (one hx)
  | setCredential y t =>
    simp only [tryStep]
    cases o y with
    | none => exact dead
    | some v => exact Yields.bind (Yields.mapLeft (E := fun o' : Clients => o' x = o x) fun _ => one hx) fun _ => Yields.pure (Q := fun o' : Clients => o' x = o x) (one hx)
  | session y q =>
    simp only [tryStep]
    cases o y with
    | none => exact dead
    | some v => exact Yields.bind (Yields.mapLeft (E := fun o' : Clients => o' x = o x) fun _ => one hx) fun _ => Yields.pure (Q := fun o' : Clients => o' x = o x) (one hx)
  | move y z =>
    simp only [tryStep, cstep]
    cases o z with
    | none => exact dead
    | some w =>
      refine .calm fun h a h' e => ?_
      cases e
      exact two hx
  | moveAssign y z =>
    simp only [tryStep, cstep]
    cases o y with
    | none => exact dead
    | some v =>
      cases o z with
      | none => exact dead
      | some w =>
        dsimp only
        split
        · refine .calm fun h a h' e => ?_
          cases e
          rfl
        · refine .calm fun h a h' e => ?_
          cases ed : v.moveAssign w h with
          | error q => rw [bindH_error ed] at e; cases e
          | ok r =>
            rw [bind_ok (a := r.1) (h' := r.2) ed] at e
            cases e
            exact two hx
  | destroy y =>
    simp only [tryStep, cstep]
    cases o y with
    | none => exact dead
    | some v =>
      refine .calm fun h a h' e => ?_
      dsimp only at e
      cases ed : v.destroy h with
      | error q => rw [bindH_error ed] at e; cases e
      | ok r =>
        rw [bind_ok (a := r.1) (h' := r.2) ed] at e
        cases e
        exact one hx

/-- A program that leaves the client alone ends in an error, or the client is as it was. -/
theorem tryRun_dangling {g : Nat → Bool} (more : List COp) (o : Clients) (st : Nat × Heap) {x : Nat} {c : ClientObj} (hx : ∀ p ∈ more, x ∉ changes p)
    (ho : o x = some c) (hc : Dangling st.2 c) : ∃ e, (tryRun g o st (more ++ [.destroy x])).2 = .error e := by
  induction more generalizing o st with
  | nil =>
    obtain ⟨e, he⟩ := destroy_dangling hc
    refine ⟨e, ?_⟩
    have : tryStep o (.destroy x) g st = .error e := by
      simp only [tryStep, cstep, ho, calm]
      rw [bindH_error he]
    simp only [List.nil_append, tryRun, this]
  | cons p ps ih =>
    simp only [List.cons_append, tryRun]
    cases es : tryStep o p g st with
    | error y => exact ⟨y, rfl⟩
    | ok r =>
      obtain ⟨q, st1⟩ := r
      obtain ⟨a, ha, hca⟩ := hc
      have ha := tryStep_buries o p a g st _ _ ha es
      have hps : ∀ q ∈ ps, x ∉ changes q := fun q hq => hx q (List.mem_cons_of_mem _ hq)
      cases q with
      | ok o1 => exact ih o1 st1 hps ((tryStep_yields o p (hx p (List.mem_cons_self ..)) _ _ _ _ es).trans ho) ⟨a, ha, hca⟩
      | error o1 => exact ih o1 st1 hps ((tryStep_yields o p (hx p (List.mem_cons_self ..)) _ _ _ _ es).trans ho) ⟨a, ha, hca⟩

/-! ### Operations that spoil -/

/-- What is there has an address that was handed out. -/
theorem deleteArray_kills {a : Nat} {h h' : Heap} {u : Unit} (hb : ∀ x, h.mem x ≠ none → x < h.next) (e : deleteArray (some a) h = .ok (u, h')) : Gone a h' := by
  simp only [deleteArray] at e
  split at e
  · rename_i s hs; cases e; exact ⟨by simp, hb a (by rw [hs]; nofun)⟩
  · rename_i s hs; cases e; exact ⟨by simp, hb a (by rw [hs]; nofun)⟩
  · cases e
  · cases e

theorem deleteFields_next {ps : List Ptr} {h h' : Heap} {u : Unit} (e : deleteFields ps h = .ok (u, h')) : h'.next = h.next := by
  induction ps generalizing h with
  | nil => cases e; rfl
  | cons p ps ih =>
    unfold deleteFields at e
    cases e1 : deleteArray p h with
    | error x => rw [bindH_error e1] at e; cases e
    | ok r =>
      rw [bind_ok (a := r.1) (h' := r.2) e1] at e
      rw [ih e]
      cases p with
      | none => cases e1; rfl
      | some b =>
        simp only [deleteArray] at e1
        split at e1
        · cases e1; rfl
        · cases e1; rfl
        · cases e1
        · cases e1

theorem deleteObject_kills {a : Nat} {h h' : Heap} {u : Unit} (hb : ∀ x, h.mem x ≠ none → x < h.next) (e : deleteObject (some a) h = .ok (u, h')) : Gone a h' := by
  unfold deleteObject at e
  dsimp only at e
  cases e1 : readObject (some a) h with
  | error x => rw [bindH_error e1] at e; cases e
  | ok r =>
    rw [bind_ok (a := r.1) (h' := r.2) e1] at e
    have hr : r.2 = h ∧ h.mem a ≠ none := by
      simp only [readObject] at e1
      split at e1
      · rename_i l hl; cases e1; exact ⟨rfl, by rw [hl]; nofun⟩
      · cases e1
      · cases e1
    cases e2 : deleteFields r.1 r.2 with
    | error x => rw [bindH_error e2] at e; cases e
    | ok r2 =>
      rw [bind_ok (a := r2.1) (h' := r2.2) e2] at e
      cases e
      refine ⟨by simp, ?_⟩
      show a < r2.2.next
      rw [deleteFields_next e2, hr.1]
      exact hb a hr.2

/-- The shape of the operations that spoil: something is deleted, and then memory is needed. -/
theorem replaced_gone {p : H Unit} {m : Attempt ClientObj α} {f : α → ClientObj} {q : H α} {c d : ClientObj} {g : Nat → Bool} {st st' : Nat × Heap} {a : Nat}
    (hp : ∀ u h', p st.2 = .ok (u, h') → Gone a h') (hm : Growing c m q) (hb : BuriesA m)
    (e : (calm p >>= fun _ => m >>= fun n => pure (f n) : Attempt ClientObj ClientObj) g st = .ok (.error d, st')) : d = c ∧ Gone a st'.2 := by
  cases e1 : p st.2 with
  | error x =>
    rw [bindA_error (x := x) (by simp only [calm, e1])] at e
    cases e
  | ok r =>
    have hk := hp _ _ e1
    rw [bindA_ok (a := r.1) (st' := (st.1, r.2)) (by simp only [calm, e1])] at e
    cases em : m g (st.1, r.2) with
    | error x => rw [bindA_error em] at e; cases e
    | ok y =>
      obtain ⟨y, st1⟩ := y
      cases y with
      | ok n => rw [bindA_ok em] at e; cases e
      | error l =>
        have h1 := hm g (st.1, r.2)
        have h2 := hb a g (st.1, r.2) _ _ hk em
        rw [em] at h1
        rw [bindA_left em] at e
        cases e
        exact ⟨h1.1, h2⟩

theorem matches_set {p : Ptr} {t : Option Bytes} (h : Matches [p] [t]) (ht : t ≠ none) : ∃ a, p = some a := by
  cases h with
  | null => exact absurd rfl ht
  | text => exact ⟨_, rfl⟩

/-- After a step that failed and spoilt a client, the client points to what is gone. -/
theorem ruined_dangling {o o' : Clients} {s : ClientValues} {leaked : List Cell} {g : Nat → Bool} {st st' : Nat × Heap} {x : Nat} {p : COp}
    (hR : CRel leaked (seen s o) s st.2) (hsp : ruined s p = some x) (he : tryStep o p g st = .ok (.error o', st')) :
    ∃ c, o' x = some c ∧ Dangling st'.2 c := by
  have hb : ∀ y, st.2.mem y ≠ none → y < st.2.next := by
    obtain ⟨_, _, -, -, -, hE⟩ := hR
    intro y hy
    cases hm : st.2.mem y with
    | none => exact absurd hm hy
    | some b => exact hE.fresh _ ((hE.mem y b).mp hm)
  have done {m : ClientObj → Attempt ClientObj ClientObj} {c : ClientObj} (ho : o x = some c)
      (hm : ∀ d st', (m c) g st = .ok (.error d, st') → d = c ∧ Dangling st'.2 c)
      (e : (do let r ← mapLeft (fun c => setClient o x (some c)) (m c); pure (setClient o x (some r)) : Attempt Clients Clients) g st = .ok (.error o', st')) :
      ∃ c, o' x = some c ∧ Dangling st'.2 c := by
    obtain ⟨d, ed, rfl⟩ := mapLeft_left (fun _ _ _ _ h => by cases h) e
    obtain ⟨rfl, h2⟩ := hm d st' ed
    exact ⟨d, by simp [setClient], h2⟩
  cases p with
  | setCredential y t =>
    cases hs : s y with
    | none => simp [ruined, spoilt, hs] at hsp
    | some v =>
      have hl : v.credential ≠ none := by intro h; simp [ruined, spoilt, hs, h] at hsp
      have : y = x := by simpa [ruined, spoilt, hs, hl] using hsp
      subst this
      obtain ⟨c, cs, R, ho, hcc, -⟩ := hR.spoil hs
      obtain ⟨ca, cc, -, h2, -⟩ := hcc.rest
      have hc : ∃ a, c.credential = some a := by
        generalize c.credential = r at h2
        cases hv : v.credential with
        | none => exact absurd hv hl
        | some w =>
          rw [hv] at h2
          cases h2
          exact ⟨_, rfl⟩
      obtain ⟨a, ha⟩ := hc
      simp only [tryStep, ho] at he
      refine done (m := fun c => c.trySetCredential o t) ho (fun d st' e => ?_) he
      obtain ⟨h3, h4⟩ := replaced_gone (a := a) (fun u h' e => by rw [ha] at e; exact deleteObject_kills hb e) (tryCopyCredential_growing c o t) (tryCopyCredential_buries c o t) e
      exact ⟨h3, a, h4, .inr (.inr ha)⟩
  | session y q =>
    cases hs : s y with
    | none => cases q <;> simp [ruined, spoilt, hs] at hsp
    | some v =>
      obtain ⟨c, cs, R, ho, hcc, -⟩ := hR.spoil hs
      cases q with
      | freshLog =>
        have hl : v.log ≠ none := by intro h; simp [ruined, spoilt, hs, h] at hsp
        have : y = x := by simpa [ruined, spoilt, hs, hl] using hsp
        subst this
        obtain ⟨a, ha⟩ := matches_set hcc.log hl
        simp only [tryStep, ho] at he
        refine done (m := fun c => c.trySession .freshLog) ho (fun d st' e => ?_) he
        obtain ⟨h3, h4⟩ := replaced_gone (a := a) (fun u h' e => by rw [ha] at e; exact deleteArray_kills hb e) (tryAlloc_growing c _) (tryAlloc_buries c _) e
        exact ⟨h3, a, h4, .inl ha⟩
      | response t =>
        have hl : v.response ≠ none := by intro h; simp [ruined, spoilt, hs, h] at hsp
        have : y = x := by simpa [ruined, spoilt, hs, hl] using hsp
        subst this
        obtain ⟨a, ha⟩ := matches_set hcc.response hl
        simp only [tryStep, ho] at he
        refine done (m := fun c => c.trySession (.response t)) ho (fun d st' e => ?_) he
        obtain ⟨h3, h4⟩ := replaced_gone (a := a) (fun u h' e => by rw [ha] at e; exact deleteArray_kills hb e) (tryAlloc_growing c _) (tryAlloc_buries c _) e
        exact ⟨h3, a, h4, .inr (.inl ha)⟩
      | log grow t => simp [ruined, spoilt] at hsp
      | options t => simp [ruined, spoilt] at hsp
  | _ => simp [ruined, spoilt] at hsp

end Verif.Proofs
