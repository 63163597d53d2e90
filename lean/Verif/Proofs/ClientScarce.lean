import Verif.Proofs.ClientHeap
import Verif.Proofs.Scarce
import Verif.Model.ClientScarce
import Verif.Spec.ClientScarce
/-! Clients when memory runs out. -/
namespace Verif.Proofs
open Verif Verif.Model Verif.Spec

variable {ε ε' α β : Type}

theorem bindA_ok {m : Attempt ε α} {f : α → Attempt ε β} {g : Nat → Bool} {st st' : Nat × Heap} {a : α} (e : m g st = .ok (.ok a, st')) :
    (m >>= f) g st = f a g st' := by
  show (match m g st with | .ok (.ok a, st') => f a g st' | .ok (.error e, st') => .ok (.error e, st') | .error e => .error e) = _
  rw [e]

theorem bindA_left {m : Attempt ε α} {f : α → Attempt ε β} {g : Nat → Bool} {st st' : Nat × Heap} {l : ε} (e : m g st = .ok (.error l, st')) :
    (m >>= f) g st = .ok (.error l, st') := by
  show (match m g st with | .ok (.ok a, st') => f a g st' | .ok (.error e, st') => .ok (.error e, st') | .error e => .error e) = _
  rw [e]

theorem bindA_error {m : Attempt ε α} {f : α → Attempt ε β} {g : Nat → Bool} {st : Nat × Heap} {x : MemErr} (e : m g st = .error x) :
    (m >>= f) g st = .error x := by
  show (match m g st with | .ok (.ok a, st') => f a g st' | .ok (.error e, st') => .ok (.error e, st') | .error e => .error e) = _
  rw [e]

/-! ### What succeeds does the same as with plenty of memory -/

/-- If `m` succeeds, `p` does the same. -/
def Shadows (m : Attempt ε α) (p : H α) : Prop := ∀ g st,
  match m g st with
  | .error e => p st.2 = .error e
  | .ok (.ok a, st') => p st.2 = .ok (a, st'.2)
  | .ok (.error _, _) => True

theorem Shadows.pure (a : α) : Shadows (Pure.pure a : Attempt ε α) (Pure.pure a) := fun _ _ => rfl

theorem Shadows.calm (p : H α) : Shadows (Model.calm p : Attempt ε α) p := by
  intro g st
  show (match (match p st.2 with
    | .ok (a, h) => .ok (.ok a, (st.1, h))
    | .error e => .error e : Except MemErr (Except ε α × (Nat × Heap))) with
    | .error e => p st.2 = .error e
    | .ok (.ok a, st') => p st.2 = .ok (a, st'.2)
    | .ok (.error _, _) => True)
  cases e : p st.2 with
  | error x => rfl
  | ok r => rfl

theorem Shadows.bind {m : Attempt ε α} {p : H α} {f : α → Attempt ε β} {k : α → H β} (h1 : Shadows m p) (h2 : ∀ a, Shadows (f a) (k a)) :
    Shadows (m >>= f) (p >>= k) := by
  intro g st
  have h := h1 g st
  cases e : m g st with
  | error x =>
    rw [e] at h
    rw [bindA_error e]
    exact bindH_error h
  | ok r =>
    obtain ⟨q, st'⟩ := r
    cases q with
    | error l => rw [bindA_left e]; trivial
    | ok a =>
      rw [e] at h
      rw [bindA_ok e, bind_ok h]
      exact h2 a g st'

theorem Shadows.room (left : ε) {m : Attempt ε α} {p : H α} (h : Shadows m p) : Shadows (Model.room left >>= fun _ => m) p := by
  intro g st
  cases hg : g st.1 with
  | false =>
    rw [bindA_left (l := left) (st' := (st.1 + 1, st.2)) (by simp only [Model.room, hg]; rfl)]
    trivial
  | true =>
    rw [bindA_ok (a := ()) (st' := (st.1 + 1, st.2)) (by simp only [Model.room, hg]; rfl)]
    exact h g (st.1 + 1, st.2)

theorem Shadows.mapLeft {m : Attempt ε α} {p : H α} (h : Shadows m p) (f : ε → ε') : Shadows (Model.mapLeft f m) p := by
  intro g st
  have := h g st
  unfold Model.mapLeft
  cases e : m g st with
  | error x => rw [e] at this; exact this
  | ok r =>
    obtain ⟨q, st'⟩ := r
    rw [e] at this
    cases q with
    | error l => trivial
    | ok a => exact this

/-- The same, and memory only grows; when there is none, `left` is left behind. -/
def Growing (left : ε) (m : Attempt ε α) (p : H α) : Prop := ∀ g st,
  match m g st with
  | .error e => p st.2 = .error e
  | .ok (.ok a, st') => p st.2 = .ok (a, st'.2) ∧ Grown st.2 st'.2
  | .ok (.error e, st') => e = left ∧ Grown st.2 st'.2

theorem Growing.shadows {left : ε} {m : Attempt ε α} {p : H α} (h : Growing left m p) : Shadows m p := by
  intro g st
  have := h g st
  cases e : m g st with
  | error x => rw [e] at this; exact this
  | ok r =>
    obtain ⟨q, st'⟩ := r
    rw [e] at this
    cases q with
    | error l => trivial
    | ok a => exact this.1

theorem Growing.pure (left : ε) (a : α) : Growing left (Pure.pure a) (Pure.pure a) := fun _ st => ⟨rfl, Grown.refl st.2⟩

theorem Growing.calm {left : ε} {p : H α} (hp : ∀ h a h', p h = .ok (a, h') → Grown h h') : Growing left (Model.calm p) p := by
  intro g st
  show (match (match p st.2 with
    | .ok (a, h) => .ok (.ok a, (st.1, h))
    | .error e => .error e : Except MemErr (Except ε α × (Nat × Heap))) with
    | .error e => p st.2 = .error e
    | .ok (.ok a, st') => p st.2 = .ok (a, st'.2) ∧ Grown st.2 st'.2
    | .ok (.error e, st') => e = left ∧ Grown st.2 st'.2)
  cases e : p st.2 with
  | error x => rfl
  | ok r => exact ⟨rfl, hp _ _ _ e⟩

theorem Growing.bind {left : ε} {m : Attempt ε α} {p : H α} {f : α → Attempt ε β} {k : α → H β} (h1 : Growing left m p)
    (h2 : ∀ a, Growing left (f a) (k a)) : Growing left (m >>= f) (p >>= k) := by
  intro g st
  have h := h1 g st
  cases e : m g st with
  | error x =>
    rw [e] at h
    rw [bindA_error e]
    exact bindH_error h
  | ok r =>
    obtain ⟨q, st'⟩ := r
    rw [e] at h
    cases q with
    | error l => rw [bindA_left e]; exact h
    | ok a =>
      rw [bindA_ok e, bind_ok h.1]
      have h3 := h2 a g st'
      cases e3 : f a g st' with
      | error x => rw [e3] at h3; exact h3
      | ok r =>
        obtain ⟨q, st''⟩ := r
        rw [e3] at h3
        cases q with
        | error l => exact ⟨h3.1, h.2.trans h3.2⟩
        | ok b => exact ⟨h3.1, h.2.trans h3.2⟩

theorem room_growing (left : ε) : Growing left (Model.room left) (Pure.pure ()) := by
  intro g st
  unfold Model.room
  cases g st.1
  · exact ⟨rfl, Grown.refl _⟩
  · exact ⟨rfl, Grown.refl _⟩

theorem Growing.room {left : ε} {m : Attempt ε α} {p : H α} (h : Growing left m p) : Growing left (Model.room left >>= fun _ => m) p :=
  Growing.bind (k := fun _ => p) (room_growing left) fun _ => h

theorem same_grown {p : H α} (hp : ∀ h a h', p h = .ok (a, h') → h' = h) : ∀ h a h', p h = .ok (a, h') → Grown h h' :=
  fun h a h' e => hp h a h' e ▸ Grown.refl h

theorem readText_growing (left : ε) (p : Ptr) : Growing left (calm (readText p)) (readText p) := .calm (same_grown fun _ _ _ e => readText_heap e)

theorem readObject_growing (left : ε) (p : Ptr) : Growing left (calm (readObject p)) (readObject p) :=
  .calm (same_grown fun h a h' e => by
    unfold readObject at e
    split at e
    · cases e
    · split at e <;> cases e <;> rfl)

theorem failH_growing (left : ε) (x : MemErr) : Growing left (calm (failH x) : Attempt ε α) (failH x) := .calm fun _ _ _ e => by cases e

theorem alloc_growing (left : ε) (b : Block) : Growing left (calm (alloc b)) (alloc b) := .calm fun _ _ _ e => Grown.alloc e

theorem tryAlloc_growing (left : ε) (b : Block) : Growing left (tryAlloc left b) (alloc b) := (alloc_growing left b).room

theorem tryCopyText_growing (left : ε) (p : Ptr) : Growing left (tryCopyText left p) (copyText p) :=
  (readText_growing left p).bind fun _ => (tryAlloc_growing left _).bind fun _ => .pure _ _

theorem tryCopyTextIfSet_growing (left : ε) (p : Ptr) : Growing left (tryCopyTextIfSet left p) (copyTextIfSet p) := by
  unfold tryCopyTextIfSet copyTextIfSet
  split
  · exact .pure _ _
  · exact tryCopyText_growing left p

theorem tryCopyFields_growing (left : ε) (ps : List Ptr) : Growing left (tryCopyFields left ps) (copyFields ps) := by
  induction ps with
  | nil => exact .pure _ _
  | cons p ps ih => exact (tryCopyText_growing left p).bind fun _ => ih.bind fun _ => .pure _ _

theorem tryCopyObject_growing (left : ε) (p : Ptr) : Growing left (tryCopyObject left p) (copyObject p) :=
  (readObject_growing left p).bind fun _ => .room ((tryCopyFields_growing left _).bind fun _ => (alloc_growing left _).bind fun _ => .pure _ _)

theorem tryCopyObjectIfSet_growing (left : ε) (p : Ptr) : Growing left (tryCopyObjectIfSet left p) (copyObjectIfSet p) := by
  unfold tryCopyObjectIfSet copyObjectIfSet
  split
  · exact .pure _ _
  · exact tryCopyObject_growing left p

theorem readName_growing (left : ε) (o : Clients) (t : NameArg) : Growing left (calm (readName o t)) (readName o t) :=
  .calm (same_grown fun h a h' e => by
    cases t with
    | text s => cases e; rfl
    | nameOf x =>
      simp only [readName] at e
      cases ho : o x with
      | none => rw [ho] at e; cases e
      | some v => rw [ho] at e; exact readText_heap e
    | logOf x =>
      simp only [readName] at e
      cases ho : o x with
      | none => rw [ho] at e; cases e
      | some v =>
        rw [ho] at e
        simp only at e
        split at e
        · cases e; rfl
        · exact readText_heap e)

theorem tryConstruct_growing (left : ε) (o : Clients) (t : NameArg) : Growing left (ClientObj.tryConstruct left o t) (ClientObj.construct o t) :=
  (readName_growing left o t).bind fun _ => .room ((tryAlloc_growing left _).bind fun _ => .pure _ _)

theorem tryCopy_growing (left : ε) (c : ClientObj) : Growing left (c.tryCopy left) c.copy :=
  (tryCopyText_growing left _).bind fun _ => (tryCopyTextIfSet_growing left _).bind fun _ => (tryCopyTextIfSet_growing left _).bind fun _ =>
    (tryCopyObjectIfSet_growing left _).bind fun _ => (tryCopyObjectIfSet_growing left _).bind fun _ => .pure _ _

theorem tryNewFields_growing (left : ε) (ss : List Bytes) : Growing left (tryNewFields left ss) (newFields ss) := by
  induction ss with
  | nil => exact .pure _ _
  | cons s ss ih => exact (tryAlloc_growing left _).bind fun _ => ih.bind fun _ => .pure _ _

theorem tryCopyCredential_growing (left : ε) (o : Clients) (t : CredArg) : Growing left (tryCopyCredential left o t) (copyCredential o t) := by
  cases t with
  | texts u p => exact .room ((tryNewFields_growing left _).bind fun _ => (alloc_growing left _).bind fun _ => .pure _ _)
  | of x =>
    simp only [tryCopyCredential, copyCredential]
    cases o x with
    | none => exact failH_growing left _
    | some v => exact tryCopyObject_growing left _

theorem tryNewOptions_growing (left : ε) (l : Bytes) : Growing left (tryNewOptions left l) (newOptions l) := by
  unfold tryNewOptions newOptions
  refine .room ?_
  split
  · exact (tryAlloc_growing left _).bind fun _ => .room (.pure _ _)
  · exact .pure _ _

theorem tryExtractOptions_growing (left : ε) (fuel : Nat) (s : Bytes) (ret : Ptr) :
    Growing left (tryExtractOptions left fuel s ret) (extractOptionsLoop fuel s ret) := by
  induction fuel generalizing s ret with
  | zero => exact .pure _ _
  | succ fuel ih =>
    unfold tryExtractOptions extractOptionsLoop
    cases findSub b!"\r\n" s with
    | none => exact .pure _ _
    | some i =>
      refine (tryNewOptions_growing left _).bind fun q => ?_
      split
      · exact .pure _ _
      · dsimp only
        split
        · exact (tryNewOptions_growing left _).bind fun _ => ih _ _
        · exact ih _ _

/-! ### Success of all operations -/

theorem tryAssign_shadows (v w : ClientObj) : Shadows (v.tryAssign w) (v.assign w) :=
  (Shadows.calm _).bind fun _ => (tryCopyText_growing _ _).shadows.bind fun _ => (tryCopyTextIfSet_growing _ _).shadows.bind fun _ =>
    (tryCopyTextIfSet_growing _ _).shadows.bind fun _ => (Shadows.calm _).bind fun _ => (tryCopyObjectIfSet_growing _ _).shadows.bind fun _ =>
      (tryCopyObjectIfSet_growing _ _).shadows.bind fun _ => .pure _

theorem trySetName_shadows (o : Clients) (c : ClientObj) (t : NameArg) : Shadows (c.trySetName o t) (c.setName o t) :=
  (Shadows.calm _).bind fun _ => .room _ ((Shadows.calm _).bind fun _ => (Shadows.calm _).bind fun _ => (tryAlloc_growing _ _).shadows.bind fun _ => .pure _)

theorem trySetCredential_shadows (o : Clients) (c : ClientObj) (t : CredArg) : Shadows (c.trySetCredential o t) (c.setCredential o t) :=
  (Shadows.calm _).bind fun _ => (tryCopyCredential_growing _ _ _).shadows.bind fun _ => .pure _

theorem trySession_shadows (c : ClientObj) (op : SessionOp) : Shadows (c.trySession op) (c.session op) := by
  cases op with
  | freshLog => exact (Shadows.calm _).bind fun _ => (tryAlloc_growing _ _).shadows.bind fun _ => .pure _
  | log grow s =>
    refine .room _ ((Shadows.calm _).bind fun _ => ?_)
    cases grow with
    | false => exact (Shadows.calm _).bind fun _ => .pure _
    | true => exact (tryAlloc_growing _ _).shadows.bind fun _ => (Shadows.calm _).bind fun _ => .pure _
  | response s => exact (Shadows.calm _).bind fun _ => (tryAlloc_growing _ _).shadows.bind fun _ => .pure _
  | options t => exact .room _ ((tryExtractOptions_growing _ _ _ _).shadows.bind fun _ => (Shadows.calm _).bind fun _ => .pure _)

theorem tryStep_shadows (o : Clients) (op : COp) : Shadows (tryStep o op) (cstep o op) := by
  cases op with
  | create x t => exact (tryConstruct_growing _ _ _).shadows.bind fun _ => .pure _
  | copy x y =>
    simp only [tryStep, cstep]
    cases o y with
    | none => exact .calm _
    | some w => exact (tryCopy_growing _ _).shadows.bind fun _ => .pure _
  | assign x y =>
    simp only [tryStep, cstep]
    cases o x with
    | none => exact .calm _
    | some v =>
      cases o y with
      | none => exact .calm _
      | some w =>
        simp only
        split
        · exact .pure _
        · exact ((tryAssign_shadows v w).mapLeft _).bind fun _ => .pure _
  | setName x t =>
    simp only [tryStep, cstep]
    cases o x with
    | none => exact .calm _
    | some v => exact ((trySetName_shadows o v t).mapLeft _).bind fun _ => .pure _
  | setCredential x t =>
    simp only [tryStep, cstep]
    cases o x with
    | none => exact .calm _
    | some v => exact ((trySetCredential_shadows o v t).mapLeft _).bind fun _ => .pure _
  | session x p =>
    simp only [tryStep, cstep]
    cases o x with
    | none => exact .calm _
    | some v => exact ((trySession_shadows v p).mapLeft _).bind fun _ => .pure _
  | move x y => exact .calm _
  | moveAssign x y => exact .calm _
  | destroy x => exact .calm _

/-! ### Failure of the operations that spoil nothing -/

/-- When there is no memory, `left` is left behind and nothing was freed. -/
def Strong (left : ε) (m : Attempt ε α) : Prop := ∀ g st,
  match m g st with
  | .ok (.error e, st') => e = left ∧ Grown st.2 st'.2
  | _ => True

theorem Growing.strong {left : ε} {m : Attempt ε α} {p : H α} (h : Growing left m p) : Strong left m := by
  intro g st
  have := h g st
  cases e : m g st with
  | error x => trivial
  | ok r =>
    obtain ⟨q, st'⟩ := r
    rw [e] at this
    cases q with
    | error l => exact this
    | ok a => trivial

theorem calm_ok (p : H α) (g : Nat → Bool) (st st' : Nat × Heap) (l : ε) : Model.calm p g st ≠ .ok (.error l, st') := by
  unfold Model.calm
  cases p st.2 <;> nofun

theorem Strong.calm (left : ε) (p : H α) : Strong left (Model.calm p) := by
  intro g st
  cases e : (Model.calm p : Attempt ε α) g st with
  | error x => trivial
  | ok r =>
    obtain ⟨q, st'⟩ := r
    cases q with
    | error l => exact absurd e (calm_ok p g st st' l)
    | ok a => trivial

theorem Strong.pure (left : ε) (a : α) : Strong left (Pure.pure a) := fun _ _ => trivial

theorem Strong.bind {left : ε} {m : Attempt ε α} {p : H α} {f : α → Attempt ε β} (h1 : Growing left m p) (h2 : ∀ a, Strong left (f a)) :
    Strong left (m >>= f) := by
  intro g st
  have h := h1 g st
  cases e : m g st with
  | error x => rw [bindA_error e]; trivial
  | ok r =>
    obtain ⟨q, st'⟩ := r
    rw [e] at h
    cases q with
    | error l => rw [bindA_left e]; exact h
    | ok a =>
      rw [bindA_ok e]
      have h3 := h2 a g st'
      cases e3 : f a g st' with
      | error x => trivial
      | ok r =>
        obtain ⟨q, st''⟩ := r
        rw [e3] at h3
        cases q with
        | error l => exact ⟨h3.1, h.2.trans h3.2⟩
        | ok b => trivial

/-- A last part that cannot fail. -/
theorem Strong.then {left : ε} {m : Attempt ε α} {f : α → Attempt ε β} (h1 : Strong left m) (h2 : ∀ a g st st' l, f a g st ≠ .ok (.error l, st')) :
    Strong left (m >>= f) := by
  intro g st
  have h := h1 g st
  cases e : m g st with
  | error x => rw [bindA_error e]; trivial
  | ok r =>
    obtain ⟨q, st'⟩ := r
    rw [e] at h
    cases q with
    | error l => rw [bindA_left e]; exact h
    | ok a =>
      rw [bindA_ok e]
      cases e3 : f a g st' with
      | error x => trivial
      | ok r =>
        obtain ⟨q, st''⟩ := r
        cases q with
        | error l => exact absurd e3 (h2 a g st' st'' l)
        | ok b => trivial

theorem Strong.mapLeft {left : ε} {m : Attempt ε α} (h : Strong left m) (f : ε → ε') : Strong (f left) (Model.mapLeft f m) := by
  intro g st
  have := h g st
  unfold Model.mapLeft
  cases e : m g st with
  | error x => trivial
  | ok r =>
    obtain ⟨q, st'⟩ := r
    rw [e] at this
    cases q with
    | error l => exact ⟨congrArg f this.1, this.2⟩
    | ok a => trivial

/-- The client that may be spoilt. -/
def maySpoil : COp → Option Nat
  | .assign x _ | .setName x _ | .setCredential x _ | .session x .freshLog | .session x (.response _) => some x
  | _ => none

theorem session_strong (c : ClientObj) (op : SessionOp) (h : maySpoil (.session 0 op) = none) : Strong c (c.trySession op) := by
  cases op with
  | freshLog => cases h
  | response s => cases h
  | log grow s =>
    refine Strong.bind (room_growing c) fun _ => Strong.bind (readText_growing c _) fun _ => ?_
    cases grow with
    | false => exact (Strong.calm c (writeText c.log s)).then fun _ _ _ _ _ => nofun
    | true => exact Strong.bind (tryAlloc_growing c _) fun _ => (Strong.calm c (deleteArray c.log)).then fun _ _ _ _ _ => nofun
  | options t =>
    exact Strong.bind (room_growing c) fun _ => Strong.bind (tryExtractOptions_growing c _ _ _) fun _ =>
      (Strong.calm c (deleteObject c.auth)).then fun _ _ _ _ _ => nofun

theorem setClient_self {o : Clients} {x : Nat} {v : ClientObj} (h : o x = some v) : setClient o x (some v) = o := by
  funext y
  unfold setClient
  split
  · rename_i e; rw [e, h]
  · rfl

theorem tryStep_strong (o : Clients) (op : COp) (h : maySpoil op = none) : Strong o (tryStep o op) := by
  cases op with
  | create x t => exact (tryConstruct_growing o o t).strong.then fun _ _ _ _ _ => nofun
  | copy x y =>
    simp only [tryStep]
    cases o y with
    | none => exact .calm _ _
    | some w => exact (tryCopy_growing o w).strong.then fun _ _ _ _ _ => nofun
  | assign x y => cases h
  | setName x t => cases h
  | setCredential x t => cases h
  | session x p =>
    simp only [tryStep]
    cases ho : o x with
    | none => exact .calm _ _
    | some v =>
      have h1 : maySpoil (.session 0 p) = none := by cases p <;> first | rfl | cases h
      have := (session_strong v p h1).mapLeft fun c => setClient o x (some c)
      rw [setClient_self ho] at this
      exact this.then fun _ _ _ _ _ => nofun
  | move x y => exact .calm _ _
  | moveAssign x y => exact .calm _ _
  | destroy x => exact .calm _ _

/-! ### Failure of the operations that spoil a client -/

/-- When there is no memory, everything but the cells in `P` is as it was. -/
def Frail (P : List Cell) (m : Attempt ε α) (Q : List Cell → Prop) : Prop := ∀ g st F, Exact st.2 (P ++ F) →
  match m g st with
  | .error _ => True
  | .ok (.ok _, st') => ∃ X, Q X ∧ Exact st'.2 (X ++ F)
  | .ok (.error _, st') => ∃ M, Exact st'.2 (M ++ F)

theorem Frail.pure {P : List Cell} (a : α) {Q : List Cell → Prop} (h : Q P) : Frail P (Pure.pure a : Attempt ε α) Q := fun _ _ _ hE => ⟨P, h, hE⟩

theorem Frail.bind {P : List Cell} {m : Attempt ε α} {f : α → Attempt ε β} {Q R : List Cell → Prop} (h1 : Frail P m Q)
    (h2 : ∀ a X, Q X → Frail X (f a) R) : Frail P (m >>= f) R := by
  intro g st F hE
  have h := h1 g st F hE
  cases e : m g st with
  | error x => rw [bindA_error e]; trivial
  | ok r =>
    obtain ⟨q, st'⟩ := r
    rw [e] at h
    cases q with
    | error l => rw [bindA_left e]; exact h
    | ok a =>
      obtain ⟨X, hQ, hX⟩ := h
      rw [bindA_ok e]
      exact h2 a X hQ g st' F hX

theorem Frail.grow {P : List Cell} {left : ε} {m : Attempt ε α} {p : H α} {f : α → Attempt ε β} {R : List Cell → Prop} (h1 : Growing left m p)
    (h2 : ∀ a M, Frail (M ++ P) (f a) R) : Frail P (m >>= f) R := by
  refine Frail.bind (Q := fun X => ∃ M, X = M ++ P) ?_ fun a X hX => ?_
  · intro g st F hE
    have h := h1 g st
    cases e : m g st with
    | error x => trivial
    | ok r =>
      obtain ⟨q, st'⟩ := r
      rw [e] at h
      cases q with
      | error l =>
        obtain ⟨M, hM⟩ := h.2 _ hE
        exact ⟨M ++ P, by rwa [List.append_assoc]⟩
      | ok a =>
        obtain ⟨M, hM⟩ := h.2 _ hE
        exact ⟨_, ⟨M, rfl⟩, by rwa [List.append_assoc]⟩
  · obtain ⟨M, rfl⟩ := hX
    exact h2 a M

theorem Frail.free {P C P' : List Cell} {p : H Unit} {f : Unit → Attempt ε β} {R : List Cell → Prop} (h1 : Frees C p) (hp : P.Perm (C ++ P'))
    (h2 : Frail P' (f ()) R) : Frail P (Model.calm p >>= f) R := by
  refine Frail.bind (Q := fun X => X = P') ?_ fun a X hX => ?_
  · intro g st F hE
    obtain ⟨r, h', X, e, hX, hE'⟩ := h1.keep P' st.2 F (hE.perm (hp.append_right F))
    rw [show (Model.calm p : Attempt ε Unit) g st = .ok (.ok r, (st.1, h')) from by simp only [Model.calm, e]]
    exact ⟨X, hX, hE'⟩
  · subst hX
    exact h2

theorem Frail.mapLeft {P : List Cell} {m : Attempt ε α} {Q : List Cell → Prop} (h : Frail P m Q) (f : ε → ε') : Frail P (Model.mapLeft f m) Q := by
  intro g st F hE
  have := h g st F hE
  unfold Model.mapLeft
  cases e : m g st with
  | error x => trivial
  | ok r =>
    obtain ⟨q, st'⟩ := r
    rw [e] at this
    cases q with
    | error l => exact this
    | ok a => exact this

variable {c : ClientObj} {v : ClientValue} {cs : List Cell}

theorem tryAssign_frail (h : ClientCells c v cs) (d : ClientObj) : Frail cs (c.tryAssign d) (fun _ => True) := by
  obtain ⟨ca, cc, h1, h2, hp⟩ := h.rest
  refine Frail.free (deleteText_frees h.name) hp (Frail.grow (tryCopyText_growing _ _) fun _ M1 => Frail.grow (tryCopyTextIfSet_growing _ _) fun _ M2 =>
    Frail.grow (tryCopyTextIfSet_growing _ _) fun _ M3 => Frail.free (deleteObject_frees h1)
      (P' := M3 ++ (M2 ++ (M1 ++ (fieldCells [c.log] [v.log] ++ (fieldCells [c.response] [v.response] ++ cc))))) (by permute)
      (Frail.grow (tryCopyObjectIfSet_growing _ _) fun _ M4 => Frail.grow (tryCopyObjectIfSet_growing _ _) fun _ M5 => Frail.pure _ trivial))

theorem trySetName_frail (h : ClientCells c v cs) (o : Clients) (t : NameArg) : Frail cs (c.trySetName o t) (fun _ => True) := by
  obtain ⟨ca, cc, h1, h2, hp⟩ := h.rest
  refine Frail.grow (readName_growing c o t) fun _ M1 => Frail.grow (room_growing c) fun _ M2 => Frail.free (deleteText_frees h.name)
    (P' := M2 ++ (M1 ++ (fieldCells [c.log] [v.log] ++ (fieldCells [c.response] [v.response] ++ (ca ++ cc)))))
    (((hp.append_left M1).append_left M2).trans (by permute))
    (Frail.grow (readName_growing c o t) fun _ M3 => Frail.grow (tryAlloc_growing c _) fun _ M4 => Frail.pure _ trivial)

theorem trySetCredential_frail (h : ClientCells c v cs) (o : Clients) (t : CredArg) : Frail cs (c.trySetCredential o t) (fun _ => True) := by
  obtain ⟨ca, cc, h1, h2, hp⟩ := h.rest
  refine Frail.free (deleteObject_frees h2)
    (P' := fieldCells [c.name] [v.name] ++ (fieldCells [c.log] [v.log] ++ (fieldCells [c.response] [v.response] ++ ca)))
    (hp.trans (by permute)) (Frail.grow (tryCopyCredential_growing c o t) fun _ M1 => Frail.pure _ trivial)

theorem freshLog_frail (h : ClientCells c v cs) : Frail cs (c.trySession .freshLog) (fun _ => True) := by
  obtain ⟨ca, cc, h1, h2, hp⟩ := h.rest
  refine Frail.free (deleteText_frees h.log)
    (P' := fieldCells [c.name] [v.name] ++ (fieldCells [c.response] [v.response] ++ (ca ++ cc)))
    (hp.trans (by permute)) (Frail.grow (tryAlloc_growing c _) fun _ M1 => Frail.pure _ trivial)

theorem response_frail (h : ClientCells c v cs) (s : Bytes) : Frail cs (c.trySession (.response s)) (fun _ => True) := by
  obtain ⟨ca, cc, h1, h2, hp⟩ := h.rest
  refine Frail.free (deleteText_frees h.response)
    (P' := fieldCells [c.name] [v.name] ++ (fieldCells [c.log] [v.log] ++ (ca ++ cc)))
    (hp.trans (by permute)) (Frail.grow (tryAlloc_growing c _) fun _ M1 => Frail.pure _ trivial)

/-! ### Spoilt clients out of sight -/

/-- The clients that have a value. -/
def seen (s : ClientValues) (o : Clients) : Clients := fun x => if s x = none then none else o x

/-- The names of an argument of `setServerName`. -/
def nameArgNames : NameArg → List Nat
  | .text _ => []
  | .nameOf x | .logOf x => [x]

/-- The names of an argument of `setCredentials`. -/
def credArgNames : CredArg → List Nat
  | .texts _ _ => []
  | .of x => [x]

/-- The clients that must be there. -/
def needs : COp → List Nat
  | .create _ t => nameArgNames t
  | .copy _ y | .move _ y => [y]
  | .assign x y | .moveAssign x y => [x, y]
  | .setName x t => x :: nameArgNames t
  | .setCredential x t => x :: credArgNames t
  | .session x _ | .destroy x => [x]

/-- The client that is new. -/
def brings : COp → List Nat
  | .create x _ | .copy x _ | .move x _ => [x]
  | _ => []

theorem nameText_some {s : ClientValues} {t : NameArg} {n : Bytes} (h : nameText s t = some n) : ∀ y ∈ nameArgNames t, s y ≠ none := by
  intro y hy e
  cases t with
  | text b => cases hy
  | nameOf x => cases List.mem_singleton.mp hy; simp only [nameText, e] at h; cases h
  | logOf x => cases List.mem_singleton.mp hy; simp only [nameText, e] at h; cases h

theorem credentialTexts_some {s : ClientValues} {t : CredArg} {n : Bytes × Bytes} (h : credentialTexts s t = some n) : ∀ y ∈ credArgNames t, s y ≠ none := by
  intro y hy e
  cases t with
  | texts u p => cases hy
  | of x => cases List.mem_singleton.mp hy; simp only [credentialTexts, e] at h; cases h

theorem needs_some {s s' : ClientValues} {op : COp} (h : clientStep s op = some s') : ∀ y ∈ needs op, s y ≠ none := by
  intro y hy
  cases op with
  | create x t =>
    simp only [clientStep] at h
    cases ht : nameText s t with
    | none => rw [ht] at h; cases h
    | some n => exact nameText_some ht y hy
  | copy x z =>
    cases List.mem_singleton.mp hy
    intro e; simp only [clientStep, e] at h; cases h
  | move x z =>
    cases List.mem_singleton.mp hy
    intro e; simp only [clientStep, e] at h; cases h
  | assign x z =>
    simp only [clientStep] at h
    split at h
    case h_2 => cases h
    rename_i e1 e2
    rcases List.mem_cons.mp hy with rfl | hy
    · rw [e1]; nofun
    · cases List.mem_singleton.mp hy; rw [e2]; nofun
  | moveAssign x z =>
    simp only [clientStep] at h
    split at h
    case h_2 => cases h
    rename_i e1 e2
    rcases List.mem_cons.mp hy with rfl | hy
    · rw [e1]; nofun
    · cases List.mem_singleton.mp hy; rw [e2]; nofun
  | setName x t =>
    simp only [clientStep] at h
    split at h
    case h_2 => cases h
    rename_i e1 e2
    rcases List.mem_cons.mp hy with rfl | hy
    · rw [e1]; nofun
    · exact nameText_some e2 y hy
  | setCredential x t =>
    simp only [clientStep] at h
    split at h
    case h_2 => cases h
    rename_i e1 e2
    rcases List.mem_cons.mp hy with rfl | hy
    · rw [e1]; nofun
    · exact credentialTexts_some e2 y hy
  | session x p =>
    cases List.mem_singleton.mp hy
    intro e; simp only [clientStep, e] at h; cases h
  | destroy x =>
    cases List.mem_singleton.mp hy
    intro e; simp only [clientStep, e] at h; cases h

theorem bindClient_some {s : ClientValues} {x y : Nat} {v : Option ClientValue} (h : bindClient s x v y ≠ none) : y = x ∨ s y ≠ none := by
  unfold bindClient at h
  split at h
  · rename_i e; exact .inl e
  · exact .inr h

theorem brings_some {s s' : ClientValues} {op : COp} (h : clientStep s op = some s') (y : Nat) (hy : s' y ≠ none) : y ∈ brings op ∨ s y ≠ none := by
  by_cases hd : y ∈ needs op
  · exact .inr (needs_some h y hd)
  have one : ∀ x v, s' = bindClient s x v → x ∈ needs op ∨ x ∈ brings op → y ∈ brings op ∨ s y ≠ none := by
    rintro x v rfl hx
    rcases bindClient_some hy with rfl | h1
    · exact hx.elim (fun h => absurd h hd) .inl
    · exact .inr h1
  have two : ∀ x v z w, s' = bindClient (bindClient s z w) x v → (x ∈ needs op ∨ x ∈ brings op) → z ∈ needs op → y ∈ brings op ∨ s y ≠ none := by
    rintro x v z w rfl hx hz
    rcases bindClient_some hy with rfl | h1
    · exact hx.elim (fun h => absurd h hd) .inl
    · rcases bindClient_some h1 with rfl | h2
      · exact absurd hz hd
      · exact .inr h2
  cases op with
  | create x t =>
    simp only [clientStep] at h
    split at h
    · split at h
      · exact one _ _ (Option.some.inj h).symm (.inr (List.mem_singleton.mpr rfl))
      · cases h
    · cases h
  | copy x z =>
    simp only [clientStep] at h
    split at h
    · split at h
      · exact one _ _ (Option.some.inj h).symm (.inr (List.mem_singleton.mpr rfl))
      · cases h
    · cases h
  | move x z =>
    simp only [clientStep] at h
    split at h
    · split at h
      · exact two _ _ _ _ (Option.some.inj h).symm (.inr (List.mem_singleton.mpr rfl)) (List.mem_singleton.mpr rfl)
      · cases h
    · cases h
  | assign x z =>
    simp only [clientStep] at h
    split at h
    · split at h
      · cases h; exact .inr hy
      · split at h
        · exact one _ _ (Option.some.inj h).symm (.inl (List.mem_cons_self ..))
        · cases h
    · cases h
  | moveAssign x z =>
    simp only [clientStep] at h
    split at h
    · split at h
      · cases h; exact .inr hy
      · exact two _ _ _ _ (Option.some.inj h).symm (.inl (List.mem_cons_self ..)) (by simp [needs])
    · cases h
  | setName x t =>
    simp only [clientStep] at h
    split at h
    · split at h
      · cases h
      · exact one _ _ (Option.some.inj h).symm (.inl (List.mem_cons_self ..))
    · cases h
  | setCredential x t =>
    simp only [clientStep] at h
    split at h
    · split at h
      · cases h
      · exact one _ _ (Option.some.inj h).symm (.inl (List.mem_cons_self ..))
    · cases h
  | session x p =>
    simp only [clientStep] at h
    split at h
    · rw [Option.map_eq_some_iff] at h
      obtain ⟨w, -, rfl⟩ := h
      exact one _ _ rfl (.inl (List.mem_singleton.mpr rfl))
    · cases h
  | destroy x =>
    simp only [clientStep] at h
    split at h
    · exact one _ _ (Option.some.inj h).symm (.inl (List.mem_singleton.mpr rfl))
    · cases h

theorem readName_agree {o o' : Clients} {t : NameArg} (h : ∀ y ∈ nameArgNames t, o y = o' y) : readName o t = readName o' t := by
  cases t with
  | text s => rfl
  | nameOf x => simp only [readName, h x (List.mem_singleton.mpr rfl)]
  | logOf x => simp only [readName, h x (List.mem_singleton.mpr rfl)]

theorem copyCredential_agree {o o' : Clients} {t : CredArg} (h : ∀ y ∈ credArgNames t, o y = o' y) : copyCredential o t = copyCredential o' t := by
  cases t with
  | texts u p => rfl
  | of x => simp only [copyCredential, h x (List.mem_singleton.mpr rfl)]

theorem bindH_inv {α : Type} {p : H α} {k : α → Clients} {h h' : Heap} {o : Clients} (e : (do let a ← p; pure (k a)) h = .ok (o, h')) :
    ∃ a, p h = .ok (a, h') ∧ o = k a := by
  cases ep : p h with
  | error x => rw [bindH_error ep] at e; cases e
  | ok r =>
    rw [bind_ok (a := r.1) (h' := r.2) ep] at e
    cases e
    exact ⟨_, rfl, rfl⟩

theorem setClient_agree {o o' : Clients} {x y : Nat} {v : Option ClientObj} (h : y = x ∨ o y = o' y) : setClient o x v y = setClient o' x v y := by
  unfold setClient
  split
  · rfl
  · rename_i hy; exact h.resolve_left hy

/-- A step does the same with other clients that it does not need. -/
theorem cstep_agree {o1 o2 o1' : Clients} {op : COp} {h h' : Heap} (hu : ∀ y ∈ needs op, o1 y = o2 y) (e : cstep o1 op h = .ok (o1', h')) :
    ∃ o2', cstep o2 op h = .ok (o2', h') ∧ ∀ y, y ∈ brings op ∨ o1 y = o2 y → o1' y = o2' y := by
  cases op with
  | create x t =>
    obtain ⟨a, e1, rfl⟩ := bindH_inv e
    refine ⟨setClient o2 x (some a), ?_, fun y hy => setClient_agree (hy.imp_left List.mem_singleton.mp)⟩
    have : ClientObj.construct o1 t = ClientObj.construct o2 t := by simp only [ClientObj.construct, readName_agree hu]
    simp only [cstep]
    rw [bind_ok (this ▸ e1)]
    rfl
  | copy x z =>
    have hz := hu z (List.mem_singleton.mpr rfl)
    simp only [cstep, ← hz] at e ⊢
    cases ho : o1 z with
    | none => rw [ho] at e; cases e
    | some w =>
      rw [ho] at e
      obtain ⟨a, e1, rfl⟩ := bindH_inv e
      refine ⟨setClient o2 x (some a), ?_, fun y hy => setClient_agree (hy.imp_left List.mem_singleton.mp)⟩
      simp only
      rw [bind_ok e1]
      rfl
  | move x z =>
    have hz := hu z (List.mem_singleton.mpr rfl)
    simp only [cstep, ← hz] at e ⊢
    cases ho : o1 z with
    | none => rw [ho] at e; cases e
    | some w =>
      rw [ho] at e
      cases e
      refine ⟨_, rfl, fun y hy => setClient_agree (hy.imp List.mem_singleton.mp fun h => setClient_agree (.inr h))⟩
  | assign x z =>
    have hx := hu x (List.mem_cons_self ..)
    have hz := hu z (by simp [needs])
    simp only [cstep, ← hz, ← hx] at e ⊢
    cases ho : o1 x with
    | none => rw [ho] at e; cases e
    | some v =>
      cases ho' : o1 z with
      | none => rw [ho, ho'] at e; cases e
      | some w =>
        rw [ho, ho'] at e
        simp only at e ⊢
        split at e
        · cases e
          rename_i hxz
          rw [if_pos hxz]
          exact ⟨o2, rfl, fun y hy => hy.resolve_left nofun⟩
        · rename_i hxz
          rw [if_neg hxz]
          obtain ⟨a, e1, rfl⟩ := bindH_inv e
          refine ⟨setClient o2 x (some a), ?_, fun y hy => setClient_agree (.inr (hy.resolve_left nofun))⟩
          rw [bind_ok e1]
          rfl
  | moveAssign x z =>
    have hx := hu x (List.mem_cons_self ..)
    have hz := hu z (by simp [needs])
    simp only [cstep, ← hz, ← hx] at e ⊢
    cases ho : o1 x with
    | none => rw [ho] at e; cases e
    | some v =>
      cases ho' : o1 z with
      | none => rw [ho, ho'] at e; cases e
      | some w =>
        rw [ho, ho'] at e
        simp only at e ⊢
        split at e
        · cases e
          rename_i hxz
          rw [if_pos hxz]
          exact ⟨o2, rfl, fun y hy => hy.resolve_left nofun⟩
        · rename_i hxz
          rw [if_neg hxz]
          obtain ⟨a, e1, rfl⟩ := bindH_inv e
          refine ⟨setClient (setClient o2 z (some a.2)) x (some a.1), ?_,
            fun y hy => setClient_agree (.inr (setClient_agree (.inr (hy.resolve_left nofun))))⟩
          rw [bind_ok e1]
          rfl
  | setName x t =>
    have hx := hu x (List.mem_cons_self ..)
    have ht := readName_agree (o := o1) (o' := o2) (t := t) fun y hy => hu y (List.mem_cons_of_mem _ hy)
    simp only [cstep, ← hx] at e ⊢
    cases ho : o1 x with
    | none => rw [ho] at e; cases e
    | some v =>
      rw [ho] at e
      obtain ⟨a, e1, rfl⟩ := bindH_inv e
      refine ⟨setClient o2 x (some a), ?_, fun y hy => setClient_agree (.inr (hy.resolve_left nofun))⟩
      have : v.setName o1 t = v.setName o2 t := by simp only [ClientObj.setName, ht]
      simp only
      rw [bind_ok (this ▸ e1)]
      rfl
  | setCredential x t =>
    have hx := hu x (List.mem_cons_self ..)
    have ht := copyCredential_agree (o := o1) (o' := o2) (t := t) fun y hy => hu y (List.mem_cons_of_mem _ hy)
    simp only [cstep, ← hx] at e ⊢
    cases ho : o1 x with
    | none => rw [ho] at e; cases e
    | some v =>
      rw [ho] at e
      obtain ⟨a, e1, rfl⟩ := bindH_inv e
      refine ⟨setClient o2 x (some a), ?_, fun y hy => setClient_agree (.inr (hy.resolve_left nofun))⟩
      have : v.setCredential o1 t = v.setCredential o2 t := by simp only [ClientObj.setCredential, ht]
      simp only
      rw [bind_ok (this ▸ e1)]
      rfl
  | session x p =>
    have hx := hu x (List.mem_singleton.mpr rfl)
    simp only [cstep, ← hx] at e ⊢
    cases ho : o1 x with
    | none => rw [ho] at e; cases e
    | some v =>
      rw [ho] at e
      obtain ⟨a, e1, rfl⟩ := bindH_inv e
      refine ⟨setClient o2 x (some a), ?_, fun y hy => setClient_agree (.inr (hy.resolve_left nofun))⟩
      simp only
      rw [bind_ok e1]
      rfl
  | destroy x =>
    have hx := hu x (List.mem_singleton.mpr rfl)
    simp only [cstep, ← hx] at e ⊢
    cases ho : o1 x with
    | none => rw [ho] at e; cases e
    | some v =>
      rw [ho] at e
      obtain ⟨a, e1, rfl⟩ := bindH_inv e
      refine ⟨setClient o2 x none, ?_, fun y hy => setClient_agree (.inr (hy.resolve_left nofun))⟩
      simp only
      rw [bind_ok e1]
      rfl

/-- What can be seen of the clients after a step that succeeds. -/
theorem cstep_seen {o : Clients} {s s' : ClientValues} {h : Heap} {leaked : List Cell} (hR : CRel leaked (seen s o) s h) (op : COp)
    (hs : clientStep s op = some s') : ∃ o' h' leaked', cstep o op h = .ok (o', h') ∧ CRel leaked' (seen s' o') s' h' := by
  obtain ⟨o1, h', more, e, hR1, -⟩ := cstep_refines hR op hs
  obtain ⟨o', e', ha⟩ := cstep_agree (o2 := o) (fun y hy => by unfold seen; rw [if_neg (needs_some hs y hy)]) e
  refine ⟨o', h', more ++ leaked, e', ?_⟩
  have : o1 = seen s' o' := by
    funext y
    unfold seen
    split
    · rename_i hy
      obtain ⟨cs, names, hat, -⟩ := hR1
      have := hat y
      rw [hy] at this
      exact this.absent.1
    · rename_i hy
      exact ha y ((brings_some hs y hy).imp_right fun h1 => by unfold seen; rw [if_neg h1])
  exact this ▸ hR1

theorem CRel.grown {o : Clients} {s : ClientValues} {h h' : Heap} {leaked : List Cell} (hR : CRel leaked o s h) (hG : Grown h h') :
    ∃ leaked', CRel leaked' o s h' := by
  obtain ⟨cs, names, hat, hn, hnames, hE⟩ := hR
  obtain ⟨M, hM⟩ := hG _ hE
  exact ⟨M ++ leaked, cs, names, hat, hn, hnames, hM.perm (by permute)⟩

/-- A client whose cells are given up. -/
theorem CRel.spoil {o : Clients} {s : ClientValues} {h : Heap} {leaked : List Cell} {x : Nat} {v : ClientValue} (hR : CRel leaked (seen s o) s h)
    (hx : s x = some v) : ∃ c cs R, o x = some c ∧ ClientCells c v cs ∧ Exact h (cs ++ R) ∧
      ∀ h' M d, Exact h' (M ++ R) → ∃ leaked', CRel leaked' (seen (bindClient s x none) (setClient o x d)) (bindClient s x none) h' := by
  obtain ⟨cs, names, hat, hn, hnames, hE⟩ := hR
  have hax := hat x
  rw [hx] at hax
  obtain ⟨c, hc, hcc⟩ := hax.object
  have hxn := hnames x (by rw [hc]; nofun)
  have ho : o x = some c := by
    unfold seen at hc
    rwa [if_neg (by rw [hx]; nofun)] at hc
  refine ⟨c, cs x, restCells names cs x ++ leaked, ho, hcc, hE.perm ?_, fun h' M d hM => ?_⟩
  · exact ((flat_focus hn hxn cs).append_right leaked).trans (by permute)
  · have e : seen (bindClient s x none) (setClient o x d) = setClient (seen s o) x none := by
      funext y
      unfold seen bindClient setClient
      by_cases hy : y = x <;> simp [hy]
    rw [e]
    refine ⟨M ++ leaked, updCells cs x [], names, clientAt_update hat .none, hn, setClient_names hnames hxn _, hM.perm ?_⟩
    exact List.Perm.trans (by permute) ((flat_update hn hxn cs []).symm.append_right (M ++ leaked))

theorem mapLeft_left {m : Attempt ε α} {f : ε → ε'} {k : α → Attempt ε' β} {g : Nat → Bool} {st st' : Nat × Heap} {l : ε'}
    (hk : ∀ a st st' l, k a g st ≠ .ok (.error l, st')) (e : (mapLeft f m >>= k) g st = .ok (.error l, st')) : ∃ c, m g st = .ok (.error c, st') ∧ l = f c := by
  cases em : m g st with
  | error x => rw [bindA_error (x := x) (by simp only [mapLeft, em])] at e; cases e
  | ok r =>
    obtain ⟨q, st1⟩ := r
    cases q with
    | error c =>
      rw [bindA_left (l := f c) (st' := st1) (by simp only [mapLeft, em])] at e
      cases e
      exact ⟨c, rfl, rfl⟩
    | ok a =>
      rw [bindA_ok (a := a) (st' := st1) (by simp only [mapLeft, em])] at e
      exact absurd e (hk _ _ _ _)

theorem frail_step {o o' : Clients} {s : ClientValues} {leaked : List Cell} {x : Nat} {v : ClientValue} {g : Nat → Bool} {st st' : Nat × Heap}
    {m : ClientObj → Attempt ClientObj ClientObj} (hR : CRel leaked (seen s o) s st.2) (hx : s x = some v)
    (hm : ∀ c cs, ClientCells c v cs → Frail cs (m c) (fun _ => True))
    (he : ∀ c, o x = some c → (mapLeft (fun c => setClient o x (some c)) (m c) >>= fun r => (pure (setClient o x (some r)) : Attempt Clients Clients)) g st =
      .ok (.error o', st')) :
    ∃ leaked', CRel leaked' (seen (bindClient s x none) o') (bindClient s x none) st'.2 := by
  obtain ⟨c, cs, R, ho, hcc, hE, hk⟩ := hR.spoil hx
  obtain ⟨d, ed, rfl⟩ := mapLeft_left (fun _ _ _ _ h => by cases h) (he c ho)
  have := hm c cs hcc g st R hE
  rw [ed] at this
  obtain ⟨M, hM⟩ := this
  exact hk _ M _ hM

/-- A first log, a first response and a first credential replace nothing. -/
theorem first_strong {o : Clients} {x : Nat} {c : ClientObj} {m : ClientObj → Attempt ClientObj ClientObj} (ho : o x = some c) (hm : Strong c (m c)) :
    Strong o (mapLeft (fun c => setClient o x (some c)) (m c) >>= fun r => (pure (setClient o x (some r)) : Attempt Clients Clients)) := by
  have := hm.mapLeft fun c => setClient o x (some c)
  rw [setClient_self ho] at this
  exact this.then fun _ _ _ _ _ => nofun

theorem freshLog_strong {c : ClientObj} (h : c.log = none) : Strong c (c.trySession .freshLog) := by
  simp only [ClientObj.trySession, h]
  exact Strong.bind (Growing.calm (p := deleteArray none) fun h a h' e => by cases e; exact Grown.refl _) fun _ => (tryAlloc_growing c _).strong.then fun _ _ _ _ _ => nofun

theorem response_strong {c : ClientObj} (h : c.response = none) (t : Bytes) : Strong c (c.trySession (.response t)) := by
  simp only [ClientObj.trySession, h]
  exact Strong.bind (Growing.calm (p := deleteArray none) fun h a h' e => by cases e; exact Grown.refl _) fun _ => (tryAlloc_growing c _).strong.then fun _ _ _ _ _ => nofun

theorem setCredential_strong {c : ClientObj} (h : c.credential = none) (o : Clients) (t : CredArg) : Strong c (c.trySetCredential o t) := by
  simp only [ClientObj.trySetCredential, h]
  exact Strong.bind (Growing.calm (p := deleteObject none) fun h a h' e => by cases e; exact Grown.refl _) fun _ =>
    (tryCopyCredential_growing c o t).strong.then fun _ _ _ _ _ => nofun

/-- What can be seen of the clients after a step that fails. -/
theorem tryStep_failed {o o' : Clients} {s s' : ClientValues} {leaked : List Cell} {g : Nat → Bool} {st st' : Nat × Heap} (hR : CRel leaked (seen s o) s st.2)
    (op : COp) (hs : clientStep s op = some s') (he : tryStep o op g st = .ok (.error o', st')) :
    MayRunOut op ∧ ∃ leaked', CRel leaked' (seen (outcome s s' op false) o') (outcome s s' op false) st'.2 := by
  have keep : spoilt s op = none → Strong o (tryStep o op) → ∃ leaked', CRel leaked' (seen (outcome s s' op false) o') (outcome s s' op false) st'.2 := by
    intro hb h1
    have h1 := h1 g st
    rw [he] at h1
    obtain ⟨rfl, hG⟩ := h1
    have e : outcome s s' op false = s := by simp [outcome, hb]
    rw [e]
    exact hR.grown hG
  cases hb : maySpoil op with
  | none =>
    have hb' : spoilt s op = none := by
      cases op with
      | session x p => cases p <;> first | rfl | cases hb
      | assign x y => cases hb
      | setName x t => cases hb
      | setCredential x t => cases hb
      | _ => rfl
    refine ⟨?_, keep hb' (tryStep_strong o op hb)⟩
    cases op with
    | move x y => exact absurd he (calm_ok (cstep _ _) g st st' _)
    | moveAssign x y => exact absurd he (calm_ok (cstep _ _) g st st' _)
    | destroy x => exact absurd he (calm_ok (cstep _ _) g st st' _)
    | assign x y => cases hb
    | _ => trivial
  | some x =>
    have there : ∀ z, z ∈ needs op → ∃ v, s z = some v := fun z hz => Option.ne_none_iff_exists'.mp (needs_some hs z hz)
    have gone : ∀ {x}, spoilt s op = some x → (∃ leaked', CRel leaked' (seen (bindClient s x none) o') (bindClient s x none) st'.2) →
        ∃ leaked', CRel leaked' (seen (outcome s s' op false) o') (outcome s s' op false) st'.2 := by
      intro x h1 h2
      have e : outcome s s' op false = bindClient s x none := by simp [outcome, h1]
      rw [e]
      exact h2
    cases op with
    | assign x y =>
      obtain ⟨v, hv⟩ := there x (List.mem_cons_self ..)
      obtain ⟨w, hw⟩ := there y (by simp [needs])
      have hoy : ∃ d, o y = some d := by
        obtain ⟨c, cs, R, ho, -⟩ := hR.spoil hw
        exact ⟨c, ho⟩
      have hox : ∃ d, o x = some d := by
        obtain ⟨c, cs, R, ho, -⟩ := hR.spoil hv
        exact ⟨c, ho⟩
      obtain ⟨d, hd⟩ := hoy
      obtain ⟨c, hc⟩ := hox
      by_cases hxy : x = y
      · simp only [tryStep, hc, hd, if_pos hxy] at he
        cases he
      · refine ⟨hxy, gone rfl (frail_step (g := g) (m := fun c => c.tryAssign d) hR hv (fun c cs hcc => tryAssign_frail hcc d) fun c hc => ?_)⟩
        simp only [tryStep, hc, hd, if_neg hxy] at he
        exact he
    | setName x t =>
      obtain ⟨v, hv⟩ := there x (List.mem_cons_self ..)
      refine ⟨trivial, gone rfl (frail_step (g := g) (m := fun c => c.trySetName o t) hR hv (fun c cs hcc => trySetName_frail hcc o t) fun c hc => ?_)⟩
      simp only [tryStep, hc] at he
      exact he
    | setCredential x t =>
      obtain ⟨v, hv⟩ := there x (List.mem_cons_self ..)
      refine ⟨trivial, ?_⟩
      by_cases hf : v.credential = none
      · obtain ⟨c, cs, R, ho, hcc, -⟩ := hR.spoil hv
        refine keep (by simp [spoilt, hv, hf]) ?_
        simp only [tryStep, ho]
        refine first_strong (m := fun c => c.trySetCredential o t) ho (setCredential_strong ?_ o t)
        obtain ⟨ca, cc, -, h2, -⟩ := hcc.rest
        rw [hf] at h2
        generalize c.credential = q at h2
        cases h2
        rfl
      · refine gone (x := x) (by simp [spoilt, hv, hf]) ?_
        refine frail_step (g := g) (m := fun c => c.trySetCredential o t) hR hv (fun c cs hcc => trySetCredential_frail hcc o t) fun c hc => ?_
        simp only [tryStep, hc] at he
        exact he
    | session x p =>
      refine ⟨trivial, ?_⟩
      obtain ⟨v, hv⟩ := there x (List.mem_cons_self ..)
      obtain ⟨c, cs, R, ho, hcc, -⟩ := hR.spoil hv
      cases p with
      | freshLog =>
        by_cases hf : v.log = none
        · refine keep (by simp [spoilt, hv, hf]) ?_
          simp only [tryStep, ho]
          refine first_strong (m := fun c => c.trySession .freshLog) ho (freshLog_strong ?_)
          have h2 := hcc.log
          rw [hf] at h2
          generalize c.log = q at h2
          cases h2
          rfl
        · refine gone (x := x) (by simp [spoilt, hv, hf]) ?_
          refine frail_step (g := g) (m := fun c => c.trySession .freshLog) hR hv (fun c cs hcc => freshLog_frail hcc) fun c hc => ?_
          simp only [tryStep, hc] at he
          exact he
      | response t =>
        by_cases hf : v.response = none
        · refine keep (by simp [spoilt, hv, hf]) ?_
          simp only [tryStep, ho]
          refine first_strong (m := fun c => c.trySession (.response t)) ho (response_strong ?_ t)
          have h2 := hcc.response
          rw [hf] at h2
          generalize c.response = q at h2
          cases h2
          rfl
        · refine gone (x := x) (by simp [spoilt, hv, hf]) ?_
          refine frail_step (g := g) (m := fun c => c.trySession (.response t)) hR hv (fun c cs hcc => response_frail hcc t) fun c hc => ?_
          simp only [tryStep, hc] at he
          exact he
      | log grow t => cases hb
      | options t => cases hb
    | create x t => cases hb
    | copy x y => cases hb
    | move x y => cases hb
    | moveAssign x y => cases hb
    | destroy x => cases hb

theorem tryRun_refines {g : Nat → Bool} (ops : List COp) (o : Clients) (s : ClientValues) (st : Nat × Heap) (leaked : List Cell)
    (hR : CRel leaked (seen s o) s st.2) (hc : Sparing s ops (tryRun g o st ops).1) :
    ∃ o' h leaked', (tryRun g o st ops).2 = .ok (o', h) ∧ FailedRightly ops (tryRun g o st ops).1 ∧
      CRel leaked' (seen (outcomes s ops (tryRun g o st ops).1) o') (outcomes s ops (tryRun g o st ops).1) h := by
  induction ops generalizing o s st leaked with
  | nil => exact ⟨o, st.2, leaked, rfl, trivial, hR⟩
  | cons p ps ih =>
    obtain ⟨s', hs, hrest⟩ := hc
    obtain ⟨o1, h1, leaked1, e1, hR1⟩ := cstep_seen hR p hs
    have hsh := tryStep_shadows o p g st
    cases e : tryStep o p g st with
    | error x => rw [e] at hsh; rw [e1] at hsh; cases hsh
    | ok r =>
      obtain ⟨q, st1⟩ := r
      rw [e] at hsh
      cases q with
      | ok o2 =>
        have hsh : cstep o p st.2 = .ok (o2, st1.2) := hsh
        rw [e1] at hsh
        cases hsh
        have er : tryRun g o st (p :: ps) = (true :: (tryRun g o1 st1 ps).1, (tryRun g o1 st1 ps).2) := by simp only [tryRun, e]
        rw [er] at hrest ⊢
        obtain ⟨o', h, leaked', a1, a2, a3⟩ := ih o1 s' st1 leaked1 hR1 hrest
        refine ⟨o', h, leaked', a1, ⟨nofun, a2⟩, ?_⟩
        simp only [outcomes, hs]
        exact a3
      | error o2 =>
        obtain ⟨hf, leaked2, hR2⟩ := tryStep_failed hR p hs e
        have er : tryRun g o st (p :: ps) = (false :: (tryRun g o2 st1 ps).1, (tryRun g o2 st1 ps).2) := by simp only [tryRun, e]
        rw [er] at hrest ⊢
        obtain ⟨o', h, leaked', a1, a2, a3⟩ := ih o2 _ st1 leaked2 hR2 hrest
        refine ⟨o', h, leaked', a1, ⟨fun _ => hf, a2⟩, ?_⟩
        simp only [outcomes, hs]
        exact a3

/-! ### Plenty of memory -/

/-- Fails only for lack of memory. -/
def Willing (m : Attempt ε α) : Prop := ∀ st, ∀ l st', m (fun _ => true) st ≠ .ok (.error l, st')

theorem Willing.pure (a : α) : Willing (Pure.pure a : Attempt ε α) := fun _ _ _ h => by cases h

theorem Willing.calm (p : H α) : Willing (Model.calm p : Attempt ε α) := fun st l st' => calm_ok p _ st st' l

theorem Willing.bind {m : Attempt ε α} {f : α → Attempt ε β} (h1 : Willing m) (h2 : ∀ a, Willing (f a)) : Willing (m >>= f) := by
  intro st l st' h
  cases e : m (fun _ => true) st with
  | error x => rw [bindA_error e] at h; cases h
  | ok r =>
    obtain ⟨q, st1⟩ := r
    cases q with
    | error l => exact h1 _ _ _ e
    | ok a => rw [bindA_ok e] at h; exact h2 a _ _ _ h

theorem room_willing (left : ε) : Willing (room left) := fun _ _ _ h => by cases h

theorem Willing.mapLeft {m : Attempt ε α} (h : Willing m) (f : ε → ε') : Willing (Model.mapLeft f m) := by
  intro st l st' e
  unfold Model.mapLeft at e
  cases em : m (fun _ => true) st with
  | error x => rw [em] at e; cases e
  | ok r =>
    obtain ⟨q, st1⟩ := r
    cases q with
    | error l => exact h _ _ _ em
    | ok a => rw [em] at e; cases e

theorem tryAlloc_willing (left : ε) (b : Block) : Willing (tryAlloc left b) := (room_willing left).bind fun _ => .calm _

theorem tryCopyText_willing (left : ε) (p : Ptr) : Willing (tryCopyText left p) :=
  (Willing.calm _).bind fun _ => (tryAlloc_willing left _).bind fun _ => .pure _

theorem tryCopyTextIfSet_willing (left : ε) (p : Ptr) : Willing (tryCopyTextIfSet left p) := by
  unfold tryCopyTextIfSet
  split
  · exact .pure _
  · exact tryCopyText_willing left p

theorem tryCopyFields_willing (left : ε) (ps : List Ptr) : Willing (tryCopyFields left ps) := by
  induction ps with
  | nil => exact .pure _
  | cons p ps ih => exact (tryCopyText_willing left p).bind fun _ => ih.bind fun _ => .pure _

theorem tryCopyObject_willing (left : ε) (p : Ptr) : Willing (tryCopyObject left p) :=
  (Willing.calm _).bind fun _ => (room_willing left).bind fun _ => (tryCopyFields_willing left _).bind fun _ => (Willing.calm _).bind fun _ => .pure _

theorem tryCopyObjectIfSet_willing (left : ε) (p : Ptr) : Willing (tryCopyObjectIfSet left p) := by
  unfold tryCopyObjectIfSet
  split
  · exact .pure _
  · exact tryCopyObject_willing left p

theorem tryNewFields_willing (left : ε) (ss : List Bytes) : Willing (tryNewFields left ss) := by
  induction ss with
  | nil => exact .pure _
  | cons s ss ih => exact (tryAlloc_willing left _).bind fun _ => ih.bind fun _ => .pure _

theorem tryCopyCredential_willing (left : ε) (o : Clients) (t : CredArg) : Willing (tryCopyCredential left o t) := by
  cases t with
  | texts u p => exact (room_willing left).bind fun _ => (tryNewFields_willing left _).bind fun _ => (Willing.calm _).bind fun _ => .pure _
  | of x =>
    simp only [tryCopyCredential]
    cases o x with
    | none => exact .calm _
    | some v => exact tryCopyObject_willing left _

theorem tryNewOptions_willing (left : ε) (l : Bytes) : Willing (tryNewOptions left l) := by
  refine (room_willing left).bind fun _ => ?_
  split
  · exact (tryAlloc_willing left _).bind fun _ => (room_willing left).bind fun _ => .pure _
  · exact .pure _

theorem tryExtractOptions_willing (left : ε) (fuel : Nat) (s : Bytes) (ret : Ptr) : Willing (tryExtractOptions left fuel s ret) := by
  induction fuel generalizing s ret with
  | zero => exact .pure _
  | succ fuel ih =>
    unfold tryExtractOptions
    cases findSub b!"\r\n" s with
    | none => exact .pure _
    | some i =>
      refine (tryNewOptions_willing left _).bind fun q => ?_
      split
      · exact .pure _
      · dsimp only
        split
        · exact (tryNewOptions_willing left _).bind fun _ => ih _ _
        · exact ih _ _

theorem trySession_willing (c : ClientObj) (op : SessionOp) : Willing (c.trySession op) := by
  cases op with
  | freshLog => exact (Willing.calm _).bind fun _ => (tryAlloc_willing _ _).bind fun _ => .pure _
  | log grow s =>
    refine (room_willing c).bind fun _ => (Willing.calm _).bind fun _ => ?_
    cases grow with
    | false => exact (Willing.calm _).bind fun _ => .pure _
    | true => exact (tryAlloc_willing _ _).bind fun _ => (Willing.calm _).bind fun _ => .pure _
  | response s => exact (Willing.calm _).bind fun _ => (tryAlloc_willing _ _).bind fun _ => .pure _
  | options t => exact (room_willing c).bind fun _ => (tryExtractOptions_willing _ _ _ _).bind fun _ => (Willing.calm _).bind fun _ => .pure _

theorem tryStep_willing (o : Clients) (op : COp) : Willing (tryStep o op) := by
  cases op with
  | create x t =>
    exact ((Willing.calm _).bind fun _ => (room_willing o).bind fun _ => (tryAlloc_willing o _).bind fun _ => .pure _).bind fun _ => .pure _
  | copy x y =>
    simp only [tryStep]
    cases o y with
    | none => exact .calm _
    | some w =>
      exact ((tryCopyText_willing o _).bind fun _ => (tryCopyTextIfSet_willing o _).bind fun _ => (tryCopyTextIfSet_willing o _).bind fun _ =>
        (tryCopyObjectIfSet_willing o _).bind fun _ => (tryCopyObjectIfSet_willing o _).bind fun _ => .pure _).bind fun _ => .pure _
  | assign x y =>
    simp only [tryStep]
    cases o x with
    | none => exact .calm _
    | some v =>
      cases o y with
      | none => exact .calm _
      | some w =>
        simp only
        split
        · exact .pure _
        · refine (Willing.mapLeft ?_ _).bind fun _ => .pure _
          exact (Willing.calm _).bind fun _ => (tryCopyText_willing _ _).bind fun _ => (tryCopyTextIfSet_willing _ _).bind fun _ =>
            (tryCopyTextIfSet_willing _ _).bind fun _ => (Willing.calm _).bind fun _ => (tryCopyObjectIfSet_willing _ _).bind fun _ =>
              (tryCopyObjectIfSet_willing _ _).bind fun _ => .pure _
  | setName x t =>
    simp only [tryStep]
    cases o x with
    | none => exact .calm _
    | some v =>
      refine (Willing.mapLeft ?_ _).bind fun _ => .pure _
      exact (Willing.calm _).bind fun _ => (room_willing _).bind fun _ => (Willing.calm _).bind fun _ => (Willing.calm _).bind fun _ =>
        (tryAlloc_willing _ _).bind fun _ => .pure _
  | setCredential x t =>
    simp only [tryStep]
    cases o x with
    | none => exact .calm _
    | some v =>
      refine (Willing.mapLeft ?_ _).bind fun _ => .pure _
      exact (Willing.calm _).bind fun _ => (tryCopyCredential_willing _ _ _).bind fun _ => .pure _
  | session x p =>
    simp only [tryStep]
    cases o x with
    | none => exact .calm _
    | some v => exact ((trySession_willing v p).mapLeft _).bind fun _ => .pure _
  | move x y => exact .calm _
  | moveAssign x y => exact .calm _
  | destroy x => exact .calm _

theorem tryRun_plenty (ops : List COp) (o : Clients) (st : Nat × Heap) : (tryRun (fun _ => true) o st ops).2 = crun o ops st.2 := by
  induction ops generalizing o st with
  | nil => rfl
  | cons p ps ih =>
    have hs := tryStep_shadows o p (fun _ => true) st
    simp only [tryRun, crun]
    cases e : tryStep o p (fun _ => true) st with
    | error x => rw [e] at hs; rw [bindH_error hs]
    | ok r =>
      obtain ⟨q, st1⟩ := r
      cases q with
      | error l => exact absurd e (tryStep_willing o p _ _ _)
      | ok o1 =>
        rw [e] at hs
        have hs : cstep o p st.2 = .ok (o1, st1.2) := hs
        rw [bind_ok hs]
        exact ih o1 st1

theorem tryRun_all (ops : List COp) (o : Clients) (st : Nat × Heap) : false ∉ (tryRun (fun _ => true) o st ops).1 := by
  induction ops generalizing o st with
  | nil => exact List.not_mem_nil
  | cons p ps ih =>
    simp only [tryRun]
    cases e : tryStep o p (fun _ => true) st with
    | error x => exact List.not_mem_nil
    | ok r =>
      obtain ⟨q, st1⟩ := r
      cases q with
      | error l => exact absurd e (tryStep_willing o p _ _ _)
      | ok o1 =>
        intro h
        rcases List.mem_cons.mp h with h | h
        · cases h
        · exact ih o1 st1 h

end Verif.Proofs
