import Verif.Proofs.Mails
import Verif.Proofs.Reply
import Verif.Spec.ClientValues
/-! Clients on the heap refine clients as values. -/
namespace Verif.Proofs
open Verif Verif.Model Verif.Spec

/-- The cells of an object with texts that a pointer owns. -/
inductive ObjCells : Ptr → Option (List Bytes) → List Cell → Prop
  | null : ObjCells none none []
  | set {e fs ts} : Matches fs (ts.map some) → ObjCells (some e) (some ts) ((e, .obj fs) :: fieldCells fs (ts.map some))

/-- The texts of the authentication options: none. -/
def authTexts (b : Bool) : Option (List Bytes) := if b then some [] else none

/-- The texts of a credential. -/
def credTexts (c : Option (Bytes × Bytes)) : Option (List Bytes) := c.map fun c => [c.1, c.2]

/-- The cells of a client. -/
structure ClientCells (c : ClientObj) (v : ClientValue) (cs : List Cell) : Prop where
  name : Matches [c.name] [v.name]
  log : Matches [c.log] [v.log]
  response : Matches [c.response] [v.response]
  rest : ∃ ca cc, ObjCells c.auth (authTexts v.auth) ca ∧ ObjCells c.credential (credTexts v.credential) cc ∧
    cs.Perm (fieldCells [c.name] [v.name] ++ (fieldCells [c.log] [v.log] ++ (fieldCells [c.response] [v.response] ++ (ca ++ cc))))

theorem deleteObject_frees {p ts cs} (h : ObjCells p ts cs) : Frees cs (deleteObject p) := by
  cases h with
  | null => exact Triple.pure () rfl
  | @set e fs ts hM =>
    unfold deleteObject
    refine Triple.bind (Triple.readObject (List.mem_cons_self ..)) fun r X hX => ?_
    obtain ⟨rfl, rfl⟩ := hX
    refine Triple.perm (P := fieldCells r (ts.map some) ++ [(e, .obj r)]) ?_ (List.perm_append_singleton ..).symm
    exact Frees.then (deleteFields_triple hM) (Triple.release e (.obj r))

theorem copyObject_makes {P : List Cell} {p ts cs} (h : ObjCells p (some ts) cs) (hsub : ∀ c ∈ cs, c ∈ P) :
    Makes P (copyObject p) (fun q ds => ObjCells q (some ts) ds) := by
  cases h with
  | @set e fs ts hM =>
    unfold copyObject
    refine Triple.bind (Triple.readObject (hsub _ (List.mem_cons_self ..))) fun r X hX => ?_
    obtain ⟨rfl, rfl⟩ := hX
    refine Makes.bind (copyFields_makes hM (none_not_map ts) fun c hc => hsub c (List.mem_cons_of_mem _ hc)) fun gs ds hds => ?_
    obtain ⟨hg, rfl⟩ := hds
    refine Makes.bind (Makes.alloc _) fun n zs hz => ?_
    subst hz
    exact Makes.pure _ ⟨_, .refl _, _, .refl _, .set hg⟩

theorem copyObjectIfSet_makes {P : List Cell} {p ts cs} (h : ObjCells p ts cs) (hsub : ∀ c ∈ cs, c ∈ P) :
    Makes P (copyObjectIfSet p) (fun q ds => ObjCells q ts ds) := by
  unfold copyObjectIfSet
  cases h with
  | null => exact Makes.pure _ .null
  | set hM =>
    rw [if_neg nofun]
    exact copyObject_makes (.set hM) hsub

theorem copyTextIfSet_makes {P : List Cell} {p : Ptr} {s : Option Bytes} (h : Matches [p] [s]) (hsub : ∀ c ∈ fieldCells [p] [s], c ∈ P) :
    Makes P (copyTextIfSet p) (fun q ds => Matches [q] [s] ∧ ds = fieldCells [q] [s]) := by
  unfold copyTextIfSet
  cases h with
  | null => exact Makes.pure _ ⟨.null .nil, rfl⟩
  | text h =>
    rw [if_neg nofun]
    exact copyText_makes (.text h) nofun hsub

theorem destroyClient_frees {c v cs} (h : ClientCells c v cs) : Frees cs c.destroy := by
  obtain ⟨ca, cc, h1, h2, hp⟩ := h.rest
  refine Triple.perm ?_ hp
  exact Frees.then (deleteText_frees h.name) (Frees.then (deleteText_frees h.log) (Frees.then (deleteText_frees h.response)
    (Frees.then (deleteObject_frees h1) (deleteObject_frees h2))))

theorem copyClient_makes {P : List Cell} {c v cs} (h : ClientCells c v cs) (hn : v.name ≠ none) (hsub : ∀ x ∈ cs, x ∈ P) :
    Makes P c.copy (fun c' ds => ClientCells c' v ds) := by
  obtain ⟨ca, cc, h1, h2, hp⟩ := h.rest
  have hin := fun x hx => hsub x (hp.mem_iff.mpr hx)
  unfold ClientObj.copy
  refine Makes.bind (copyText_makes h.name hn fun x hx => hin x (by simp [hx])) fun p1 d1 hd1 => ?_
  refine Makes.bind (copyTextIfSet_makes h.log fun x hx => List.mem_append_right _ (hin x (by simp [hx]))) fun p2 d2 hd2 => ?_
  refine Makes.bind (copyTextIfSet_makes h.response fun x hx => List.mem_append_right _ (List.mem_append_right _ (hin x (by simp [hx])))) fun p3 d3 hd3 => ?_
  refine Makes.bind (copyObjectIfSet_makes h1 fun x hx =>
    List.mem_append_right _ (List.mem_append_right _ (List.mem_append_right _ (hin x (by simp [hx]))))) fun p4 d4 hd4 => ?_
  refine Makes.bind (copyObjectIfSet_makes h2 fun x hx =>
    List.mem_append_right _ (List.mem_append_right _ (List.mem_append_right _ (List.mem_append_right _ (hin x (by simp [hx])))))) fun p5 d5 hd5 => ?_
  obtain ⟨m1, rfl⟩ := hd1
  obtain ⟨m2, rfl⟩ := hd2
  obtain ⟨m3, rfl⟩ := hd3
  refine Makes.pure _ ⟨_, .refl _, _, .refl _, _, .refl _, _, .refl _, _, .refl _, m1, m2, m3, d4, d5, hd4, hd5, ?_⟩
  permute

theorem fieldCells_length {p : Ptr} {t : Option Bytes} (h : Matches [p] [t]) : (fieldCells [p] [t]).length = if t = none then 0 else 1 := by
  cases h <;> rfl

theorem credCells_length {p : Ptr} {k : Option (Bytes × Bytes)} {cs : List Cell} (h : ObjCells p (credTexts k) cs) : cs.length = if k = none then 0 else 3 := by
  cases k with
  | none => cases h; rfl
  | some k =>
    cases h with
    | set h =>
      cases h with
      | text h => cases h with
        | text h => cases h; rfl

theorem assignClient_triple {O : List Cell} {c d : ClientObj} {v w : ClientValue} {cs ds : List Cell} (hc : ClientCells c v cs) (hd : ClientCells d w ds)
    (hw : w.name ≠ none) (hsub : ∀ x ∈ ds, x ∈ O) :
    Triple (cs ++ O) (c.assign d) (fun r X => ∃ es M, ClientCells r w es ∧ M.length = v.texts ∧ X = es ++ (M ++ O)) := by
  obtain ⟨ca, cc, h1, h2, hp⟩ := hc.rest
  obtain ⟨da, dc, k1, k2, hq⟩ := hd.rest
  have hin := fun x hx => hsub x (hq.mem_iff.mpr hx)
  unfold ClientObj.assign
  have more : ∀ {A B : List Cell} {x}, x ∈ B → x ∈ A ++ B := fun h => List.mem_append_right _ h
  refine Triple.perm (P := fieldCells [c.name] [v.name] ++ (ca ++ (fieldCells [c.log] [v.log] ++ (fieldCells [c.response] [v.response] ++ cc) ++ O))) ?_
    ((hp.append_right O).trans (by permute))
  generalize hM : fieldCells [c.log] [v.log] ++ (fieldCells [c.response] [v.response] ++ cc) = M
  have hMn : M.length = v.texts := by
    rw [← hM, List.length_append, List.length_append, fieldCells_length hc.log, fieldCells_length hc.response, credCells_length h2, ClientValue.texts]
    omega
  refine ((deleteText_frees hc.name).keep _).bind fun _ X hX => ?_
  subst hX
  refine Triple.bind (copyText_makes hd.name hw fun x hx => more (more (hin x (by simp [hx])))) fun p1 X hX => ?_
  obtain ⟨_, ⟨m1, rfl⟩, rfl⟩ := hX
  refine Triple.bind (copyTextIfSet_makes hd.log fun x hx => more (more (more (hin x (by simp [hx]))))) fun p2 X hX => ?_
  obtain ⟨_, ⟨m2, rfl⟩, rfl⟩ := hX
  refine Triple.bind (copyTextIfSet_makes hd.response fun x hx => more (more (more (more (hin x (by simp [hx])))))) fun p3 X hX => ?_
  obtain ⟨_, ⟨m3, rfl⟩, rfl⟩ := hX
  refine Triple.perm (P := ca ++ (fieldCells [p3] [w.response] ++ (fieldCells [p2] [w.log] ++ (fieldCells [p1] [w.name] ++ (M ++ O))))) ?_ (by permute)
  refine ((deleteObject_frees h1).keep _).bind fun _ X hX => ?_
  subst hX
  refine Triple.bind (copyObjectIfSet_makes k1 fun x hx => more (more (more (more (hin x (by simp [hx])))))) fun p4 X hX => ?_
  obtain ⟨d4, hd4, rfl⟩ := hX
  refine Triple.bind (copyObjectIfSet_makes k2 fun x hx => more (more (more (more (more (hin x (by simp [hx]))))))) fun p5 X hX => ?_
  obtain ⟨d5, hd5, rfl⟩ := hX
  refine Triple.perm (Triple.pure _ ⟨fieldCells [p1] [w.name] ++ (fieldCells [p2] [w.log] ++ (fieldCells [p3] [w.response] ++ (d4 ++ d5))), M,
    ⟨m1, m2, m3, d4, d5, hd4, hd5, .refl _⟩, hMn, rfl⟩) ?_
  permute

theorem gone_cells : ClientCells .emptied .gone [] :=
  ⟨.null .nil, .null .nil, .null .nil, [], [], .null, .null, .refl _⟩

theorem Triple.writeText {a : Nat} {s : Bytes} (t : Bytes) : Triple [(a, .chars s)] (Model.writeText (some a) t) (fun _ X => X = [(a, .chars t)]) := by
  intro h F hE
  have hm : h.mem a = some (.chars s) := (hE.mem a _).mpr (by simp)
  refine ⟨(), { h with mem := fun x => if x = a then some (.chars t) else h.mem x }, [(a, .chars t)], ?_, rfl, ?_, ?_, ?_⟩
  · show (match h.mem a with
      | some (.chars _) => Except.ok ((), { h with mem := fun x => if x = a then some (.chars t) else h.mem x })
      | some _ => Except.error MemErr.mismatch
      | none => Except.error MemErr.deadRead) = _
    rw [hm]
  · exact hE.nodup
  · intro x b
    have hn := hE.nodup
    simp only [List.singleton_append, List.map_cons, List.nodup_cons] at hn
    simp only [List.singleton_append, List.mem_cons]
    by_cases hx : x = a
    · subst hx
      simp only [if_true, Option.some.injEq, Prod.mk.injEq, true_and]
      constructor
      · intro e; exact .inl e.symm
      · rintro (e | hmem)
        · exact e.symm
        · exact absurd (List.mem_map.mpr ⟨_, hmem, rfl⟩) hn.1
    · simp only [hx, if_false, Prod.mk.injEq, false_and, false_or]
      rw [hE.mem]
      simp [hx]
  · intro c hc
    have := hE.fresh
    simp only [List.singleton_append, List.mem_cons] at hc this
    rcases hc with rfl | hc
    · exact this (a, .chars s) (.inl rfl)
    · exact this _ (.inr hc)

/-- The blocks a session step loses. -/
def lostIn : SessionOp → Nat
  | .options t => if authInside t then 1 else 0
  | _ => 0

theorem newOptions_yes {l : Bytes} (h : IsAuthLine l) : Triple [] (newOptions l) (fun q X => ∃ a, q = some a ∧ X = [(a, .obj [])]) := by
  unfold newOptions
  have h' : l.take 8 = b!"250-AUTH" ∨ l.take 8 = b!"250 AUTH" :=
    h.imp (take_eq_iff_prefix b!"250-AUTH" l).mpr (take_eq_iff_prefix b!"250 AUTH" l).mpr
  rw [if_pos h']
  refine Triple.bind (Triple.alloc (.obj [])) fun a X hX => ?_
  exact Triple.pure _ ⟨a, rfl, hX⟩

theorem newOptions_no {l : Bytes} (h : ¬ IsAuthLine l) : newOptions l = pure none := by
  unfold newOptions
  rw [if_neg fun h' => h (h'.imp (take_eq_iff_prefix b!"250-AUTH" l).mp (take_eq_iff_prefix b!"250 AUTH" l).mp)]

theorem authInside_next {l : Bytes} {t : Bytes} {s' m : Bytes} {ms : List Bytes} (ht : lines t = l :: lines s') (hl : ¬ IsAuthLine l)
    (hs : lines s' = m :: ms) (hm : ¬ IsAuthLine m) : authInside t = authInside s' := by
  unfold authInside
  rw [ht, hs]
  simp only [List.findIdx?_cons, hl, hm, decide_false, Bool.false_eq_true, if_false, Option.map_map]
  cases ms.findIdx? fun l => decide (IsAuthLine l) with
  | none => rfl
  | some i => simp

/-- The loop, once an AUTH line is next. -/
theorem extractOptionsLoop_found (fuel : Nat) (s : Bytes) (a : Nat) (hf : s.length ≤ fuel) (hs : IsAuthLine s) :
    Triple [(a, .obj [])] (extractOptionsLoop fuel s (some a))
      (fun q X => ∃ b M, q = some b ∧ M.length = (if 2 ≤ (lines s).length then 1 else 0) ∧ X = [(b, .obj [])] ++ M) := by
  cases fuel with
  | zero =>
    have : s = [] := List.eq_nil_of_length_eq_zero (by omega)
    subst this
    rcases hs with ⟨t, h⟩ | ⟨t, h⟩ <;> simp at h
  | succ n =>
    unfold extractOptionsLoop
    cases hfs : findSub b!"\r\n" s with
    | none => exact Triple.pure _ ⟨a, [], rfl, by rw [findSub_none hfs]; rfl, rfl⟩
    | some i =>
      have hl := lines_of_findSub hfs
      have h1 := (isAuthLine_first hl).mp hs
      refine Triple.bind ((newOptions_yes h1).frame [(a, .obj [])]) fun q X hX => ?_
      obtain ⟨Y, rfl, b, rfl, rfl⟩ := hX
      rw [if_pos nofun]
      refine Triple.pure _ ⟨b, [(a, .obj [])], rfl, ?_, rfl⟩
      rw [hl]
      have := lines_ne_nil (s.drop (i + 2))
      cases h : lines (s.drop (i + 2)) with
      | nil => exact absurd h this
      | cons => rfl

theorem offersAuth_next {t l s' m : Bytes} {ms : List Bytes} (ht : lines t = l :: lines s') (hl : ¬ IsAuthLine l)
    (hs : lines s' = m :: ms) (hm : ¬ IsAuthLine m) : OffersAuth t ↔ OffersAuth s' := by
  unfold OffersAuth
  rw [ht, hs]
  simp only [List.length_cons, List.mem_cons, exists_eq_or_imp, hl, hm, false_or]
  constructor
  · rintro ⟨_, x, hx, h⟩
    cases ms with
    | nil => simp at hx
    | cons => exact ⟨by simp, x, hx, h⟩
  · rintro ⟨_, x, hx, h⟩
    exact ⟨by omega, x, hx, h⟩

theorem pure_bindH {α β : Type} (a : α) (f : α → H β) : (pure a >>= f) = f a := rfl

theorem extractOptionsLoop_triple (fuel : Nat) (s : Bytes) (hf : s.length ≤ fuel) : Triple [] (extractOptionsLoop fuel s none)
      (fun q X => ∃ es M, ObjCells q (authTexts (decide (OffersAuth s))) es ∧ M.length = lostIn (.options s) ∧ X = es ++ M) := by
  induction fuel generalizing s with
  | zero =>
    have : s = [] := List.eq_nil_of_length_eq_zero (by omega)
    subst this
    exact Triple.pure _ ⟨[], [], .null, rfl, rfl⟩
  | succ n ih =>
    unfold extractOptionsLoop
    cases hfs : findSub b!"\r\n" s with
    | none =>
      have hl := findSub_none hfs
      refine Triple.pure _ ⟨[], [], ?_, ?_, rfl⟩
      · rw [decide_eq_false (by simp [OffersAuth, hl])]
        exact .null
      · simp only [lostIn, authInside, hl, List.findIdx?_cons, List.findIdx?_nil]
        by_cases h : IsAuthLine s <;> simp [h]
    | some i =>
      have hl := lines_of_findSub hfs
      generalize hs' : s.drop (i + 2) = s' at hl
      dsimp only
      obtain ⟨m, ms, hms⟩ : ∃ m ms, lines s' = m :: ms := by
        cases h : lines s' with
        | nil => exact absurd h (lines_ne_nil _)
        | cons m ms => exact ⟨m, ms, rfl⟩
      by_cases h1 : IsAuthLine (s.take i)
      · refine Triple.bind (newOptions_yes h1) fun q X hX => ?_
        obtain ⟨b, rfl, rfl⟩ := hX
        rw [if_pos nofun]
        refine Triple.pure _ ⟨[(b, .obj [])], [], ?_, ?_, rfl⟩
        · rw [decide_eq_true ⟨by rw [hl, hms]; simp, _, by rw [hl]; exact List.mem_cons_self .., h1⟩]
          exact .set .nil
        · simp [lostIn, authInside, hl, List.findIdx?_cons, h1]
      · rw [newOptions_no h1, pure_bindH, if_neg (by simp)]
        by_cases h2 : IsAuthLine s'
        · have h2' := (isAuthLine_first hms).mp h2
          have hne : s'.isEmpty = false := by
            cases s' with
            | nil => rcases h2 with ⟨t, h⟩ | ⟨t, h⟩ <;> simp at h
            | cons => rfl
          rw [hs', hne]
          refine Triple.bind (newOptions_yes h2) fun q X hX => ?_
          obtain ⟨b, rfl, rfl⟩ := hX
          have hlen : s'.length ≤ n := by
            rw [← hs', List.length_drop]
            omega
          refine (extractOptionsLoop_found n s' b hlen h2).post fun q X hX => ?_
          obtain ⟨b', M, rfl, hM, rfl⟩ := hX
          refine ⟨_, .refl _, [(b', .obj [])], M, ?_, ?_, rfl⟩
          · rw [decide_eq_true ⟨by rw [hl, hms]; simp, m, by rw [hl, hms]; simp, h2'⟩]
            exact .set .nil
          · rw [hM]
            simp only [lostIn, authInside, hl, hms, List.findIdx?_cons, h1, h2', decide_false, decide_true]
            cases ms <;> simp
        · have h2' := fun h => h2 ((isAuthLine_first hms).mpr h)
          have hlen : s'.length ≤ n := by
            rw [← hs', List.length_drop]
            omega
          rw [hs', newOptions_no h2, ite_self, pure_bindH]
          refine (ih s' hlen).post fun q X hX => ?_
          obtain ⟨es, M, he, hM, rfl⟩ := hX
          refine ⟨_, .refl _, es, M, ?_, ?_, rfl⟩
          · rw [show decide (OffersAuth s) = decide (OffersAuth s') from decide_eq_decide.mpr (offersAuth_next hl h1 hms h2')]
            exact he
          · rw [hM]
            simp only [lostIn]
            rw [authInside_next hl h1 hms h2']

theorem extractOptions_triple (t : Bytes) : Triple [] (extractOptionsLoop t.length t none)
      (fun q X => ∃ es M, ObjCells q (authTexts (decide (OffersAuth t))) es ∧ M.length = lostIn (.options t) ∧ X = es ++ M) :=
  extractOptionsLoop_triple t.length t (Nat.le_refl _)

theorem session_triple {c : ClientObj} {v w : ClientValue} {cs : List Cell} (hc : ClientCells c v cs) (op : SessionOp) (hs : sessionStep v op = some w) :
    Triple cs (c.session op) (fun r X => ∃ es M, ClientCells r w es ∧ M.length = lostIn op ∧ X = es ++ M) := by
  have plain : ∀ op, lostIn op = 0 → Triple cs (c.session op) (fun r X => ClientCells r w X) →
      Triple cs (c.session op) (fun r X => ∃ es M, ClientCells r w es ∧ M.length = lostIn op ∧ X = es ++ M) :=
    fun op h0 h => h.post fun r X hX => ⟨X, .refl _, X, [], hX, h0.symm, by simp⟩
  obtain ⟨ca, cc, h1, h2, hp⟩ := hc.rest
  cases op with
  | freshLog =>
    cases hs
    refine plain _ rfl ?_
    unfold ClientObj.session
    refine Triple.perm (P := fieldCells [c.log] [v.log] ++ (fieldCells [c.name] [v.name] ++ (fieldCells [c.response] [v.response] ++ (ca ++ cc)))) ?_
      (hp.trans (by permute))
    refine ((deleteText_frees hc.log).keep _).bind fun _ X hX => ?_
    subst hX
    refine Triple.bind (Makes.alloc (.chars [])) fun a X hX => ?_
    obtain ⟨_, rfl, rfl⟩ := hX
    refine Triple.pure _ ⟨hc.name, .text .nil, hc.response, ca, cc, h1, h2, ?_⟩
    show ([(a, Block.chars [])] ++ _ : List Cell).Perm (_ ++ ([(a, Block.chars [])] ++ _))
    permute
  | response t =>
    cases hs
    refine plain _ rfl ?_
    unfold ClientObj.session
    refine Triple.perm (P := fieldCells [c.response] [v.response] ++ (fieldCells [c.name] [v.name] ++ (fieldCells [c.log] [v.log] ++ (ca ++ cc)))) ?_
      (hp.trans (by permute))
    refine ((deleteText_frees hc.response).keep _).bind fun _ X hX => ?_
    subst hX
    refine Triple.bind (Makes.alloc (.chars t)) fun a X hX => ?_
    obtain ⟨_, rfl, rfl⟩ := hX
    refine Triple.pure _ ⟨hc.name, hc.log, .text .nil, ca, cc, h1, h2, ?_⟩
    show ([(a, Block.chars t)] ++ _ : List Cell).Perm (_ ++ (_ ++ ([(a, Block.chars t)] ++ _)))
    permute
  | options t =>
    cases hs
    unfold ClientObj.session
    refine Triple.bind ((extractOptions_triple t).frame cs) fun q X hX => ?_
    obtain ⟨Y, rfl, es, M, hq, hM, rfl⟩ := hX
    refine Triple.perm (P := ca ++ (fieldCells [c.name] [v.name] ++ (fieldCells [c.log] [v.log] ++ (fieldCells [c.response] [v.response] ++ (es ++ cc))) ++ M)) ?_
      ((hp.append_left _).trans (by permute))
    refine ((deleteObject_frees h1).keep _).bind fun _ X hX => ?_
    subst hX
    exact Triple.pure _ ⟨_, M, ⟨hc.name, hc.log, hc.response, es, cc, hq, h2, .refl _⟩, hM, rfl⟩
  | log grow t =>
    simp only [sessionStep] at hs
    split at hs
    · cases hs
    rename_i hl
    cases hs
    refine plain _ rfl ?_
    unfold ClientObj.session
    have hlog := hc.log
    generalize he : c.log = pl at hlog hp
    generalize hv : v.log = vl at hlog hp hl
    cases hlog with
    | null => exact absurd rfl hl
    | @text a s _ _ hm =>
      refine Triple.perm (P := (a, .chars s) :: (fieldCells [c.name] [v.name] ++ (fieldCells [c.response] [v.response] ++ (ca ++ cc)))) ?_ (hp.trans ?_)
      · refine Triple.bind (Triple.readText (List.mem_cons_self ..)) fun r X hX => ?_
        obtain ⟨rfl, rfl⟩ := hX
        cases grow with
        | true =>
          rw [if_pos rfl]
          refine Triple.bind (Makes.alloc (.chars t)) fun n X hX => ?_
          obtain ⟨_, rfl, rfl⟩ := hX
          refine Triple.perm (P := [(a, .chars r)] ++ ([(n, .chars t)] ++ (fieldCells [c.name] [v.name] ++ (fieldCells [c.response] [v.response] ++ (ca ++ cc))))) ?_ (by permute)
          refine (Frees.keep (Triple.deleteArray a (.chars r) trivial) _).bind fun _ X hX => ?_
          subst hX
          refine Triple.pure _ ⟨hc.name, .text .nil, hc.response, ca, cc, h1, h2, ?_⟩
          show ([(n, Block.chars t)] ++ _ : List Cell).Perm (_ ++ ([(n, Block.chars t)] ++ _))
          permute
        | false =>
          rw [if_neg nofun]
          refine ((Triple.writeText (a := a) (s := r) t).frame _).bind fun _ X hX => ?_
          obtain ⟨Y, rfl, rfl⟩ := hX
          refine Triple.pure _ ⟨hc.name, by rw [he]; exact .text .nil, hc.response, ca, cc, h1, h2, ?_⟩
          rw [he]
          show ([(a, Block.chars t)] ++ (fieldCells [c.name] [v.name] ++ (fieldCells [c.response] [v.response] ++ (ca ++ cc))) : List Cell).Perm
            (fieldCells [c.name] [v.name] ++ ([(a, Block.chars t)] ++ (fieldCells [c.response] [v.response] ++ (ca ++ cc))))
          permute
      · show (fieldCells [c.name] [v.name] ++ ([(a, Block.chars s)] ++ (fieldCells [c.response] [v.response] ++ (ca ++ cc))) : List Cell).Perm
          ([(a, Block.chars s)] ++ (fieldCells [c.name] [v.name] ++ (fieldCells [c.response] [v.response] ++ (ca ++ cc))))
        permute

/-! ### All clients -/

/-- The cells of a named client. -/
inductive ClientAt : Option ClientObj → Option ClientValue → List Cell → Prop
  | none : ClientAt none none []
  | some {m v cs} : ClientCells m v cs → ClientAt (some m) (some v) cs

variable {o : Clients} {s : ClientValues} {cs : Nat → List Cell} {names : List Nat} {x y : Nat}

theorem clientAt_update (h : ∀ x, ClientAt (o x) (s x) (cs x)) {a b d} (hx : ClientAt a b d) :
    ∀ y, ClientAt (setClient o x a y) (bindClient s x b y) (updCells cs x d y) := by
  intro y
  unfold setClient bindClient updCells
  split
  · exact hx
  · exact h y

theorem setClient_names (hnames : ∀ x, o x ≠ none → x ∈ names) (hx : x ∈ names) (v : Option ClientObj) : ∀ y, setClient o x v y ≠ none → y ∈ names := by
  intro y hy
  by_cases h : y = x
  · exact h ▸ hx
  · exact hnames y (by simpa [setClient, h] using hy)

/-- Where a step must end, with so many cells lost. -/
def GotC (lost : Nat) (names : List Nat) (s' : ClientValues) (o' : Clients) (X : List Cell) : Prop :=
  ∃ cs' M, (∀ x, ClientAt (o' x) (s' x) (cs' x)) ∧ (∀ x, o' x ≠ none → x ∈ names) ∧ M.length = lost ∧ X = names.flatMap cs' ++ M

theorem ClientAt.object {w : ClientValue} {ds : List Cell} {v : Option ClientObj} (h : ClientAt v (.some w) ds) : ∃ m, v = .some m ∧ ClientCells m w ds := by
  cases h with
  | some h => exact ⟨_, rfl, h⟩

theorem ClientAt.absent {ds : List Cell} {v : Option ClientObj} (h : ClientAt v .none ds) : v = .none ∧ ds = [] := by
  cases h with
  | none => exact ⟨rfl, rfl⟩

/-- One object replaced, everything else kept. -/
theorem gotC_one (hat : ∀ x, ClientAt (o x) (s x) (cs x)) (hn : names.Nodup) (hnames : ∀ x, o x ≠ none → x ∈ names) (hx : x ∈ names)
    {a b d} (h : ClientAt a b d) (M : List Cell) :
    ∃ Y, (d ++ (M ++ restCells names cs x)).Perm Y ∧ GotC M.length names (bindClient s x b) (setClient o x a) Y := by
  refine ⟨_, ?_, updCells cs x d, M, clientAt_update hat h, setClient_names hnames hx _, rfl, rfl⟩
  refine List.Perm.trans ?_ ((flat_update hn hx cs d).symm.append_right M)
  permute

theorem readName_triple {P : List Cell} (hat : ∀ x, ClientAt (o x) (s x) (cs x)) (t : NameArg) {n : Bytes} (ht : nameText s t = some n)
    (hname : ∀ y v w, t = .nameOf y → o y = some v → s y = some w → ∀ c ∈ fieldCells [v.name] [w.name], c ∈ P)
    (hlog : ∀ y v w, t = .logOf y → o y = some v → s y = some w → ∀ c ∈ fieldCells [v.log] [w.log], c ∈ P) :
    Triple P (readName o t) (fun r X => r = n ∧ X = P) := by
  cases t with
  | text b => cases ht; exact Triple.pure _ ⟨rfl, rfl⟩
  | nameOf y =>
    simp only [nameText, Option.bind_eq_some_iff] at ht
    obtain ⟨w, hw, hwn⟩ := ht
    have hay := hat y
    rw [hw] at hay
    obtain ⟨m, hm, hmc⟩ := hay.object
    have hsub := hname y m w rfl hm hw
    simp only [readName, hm]
    have hmn := hmc.name
    rw [hwn] at hmn hsub
    generalize m.name = p at hmn hsub
    cases hmn with
    | text => exact Triple.readText (hsub _ (List.mem_singleton.mpr rfl))
  | logOf y =>
    simp only [nameText, Option.bind_eq_some_iff] at ht
    obtain ⟨w, hw, hwn⟩ := ht
    cases hwn
    have hay := hat y
    rw [hw] at hay
    obtain ⟨m, hm, hmc⟩ := hay.object
    have hsub := hlog y m w rfl hm hw
    simp only [readName, hm]
    have hmn := hmc.log
    generalize m.log = p at hmn hsub
    generalize w.log = q at hmn hsub
    cases hmn with
    | null => exact Triple.pure _ ⟨rfl, rfl⟩
    | text => exact Triple.readText (hsub _ (List.mem_singleton.mpr rfl))

theorem mem_name {c : ClientObj} {v : ClientValue} {ds : List Cell} (h : ClientCells c v ds) : ∀ x ∈ fieldCells [c.name] [v.name], x ∈ ds := by
  obtain ⟨ca, cc, _, _, hp⟩ := h.rest
  intro x hx
  exact hp.mem_iff.mpr (by simp [hx])

theorem mem_log {c : ClientObj} {v : ClientValue} {ds : List Cell} (h : ClientCells c v ds) : ∀ x ∈ fieldCells [c.log] [v.log], x ∈ ds := by
  obtain ⟨ca, cc, _, _, hp⟩ := h.rest
  intro x hx
  exact hp.mem_iff.mpr (by simp [hx])

theorem mem_rest {c : Cell} (hy : y ∈ names) (hxy : y ≠ x) (hc : c ∈ cs y) : c ∈ restCells names cs x :=
  List.mem_flatMap.mpr ⟨y, List.mem_filter.mpr ⟨hy, by simpa using hxy⟩, hc⟩

theorem cstep_triple {s' : ClientValues} (hat : ∀ x, ClientAt (o x) (s x) (cs x)) (hn : names.Nodup) (hnames : ∀ x, o x ≠ none → x ∈ names) (op : COp)
    (htarget : ∀ x, (∃ y, op = .copy x y ∨ op = .move x y) ∨ (∃ t, op = .create x t) → x ∈ names)
    (h : clientStep s op = some s') : Triple (names.flatMap cs) (cstep o op) (GotC (lostBy s op) names s') := by
  have inNames : ∀ {x m}, o x = some m → x ∈ names := fun h => hnames _ (by rw [h]; nofun)
  have seen : ∀ {x m c}, o x = some m → c ∈ cs x → c ∈ names.flatMap cs := fun h hc => List.mem_flatMap.mpr ⟨_, inNames h, hc⟩
  have cellsOf : ∀ {y m w}, o y = some m → s y = some w → ClientCells m w (cs y) := fun {y m w} h1 h2 => by
    have := hat y
    rw [h1, h2] at this
    cases this; assumption
  cases op with
  | create x t =>
    simp only [clientStep] at h
    split at h
    case h_2 => cases h
    rename_i n hnt
    split at h
    case isFalse => cases h
    rename_i hc
    cases h
    have hx := htarget x (.inr ⟨_, rfl⟩)
    have hax := hat x
    rw [hc] at hax
    simp only [cstep, ClientObj.construct]
    refine Triple.bind (Q := fun (r : ClientObj) X => ∃ ds, ClientCells r { name := some n, log := none, response := none, auth := false, credential := none } ds ∧
        X = ds ++ names.flatMap cs) ?_ fun r X hX => ?_
    · refine Triple.bind (readName_triple hat t hnt (fun y v w _ hv hw c hc => seen hv (mem_name (cellsOf hv hw) c hc))
        (fun y v w _ hv hw c hc => seen hv (mem_log (cellsOf hv hw) c hc))) fun r X hX => ?_
      obtain ⟨rfl, rfl⟩ := hX
      refine Triple.bind (Makes.alloc (.chars r)) fun a X hX => ?_
      obtain ⟨_, rfl, rfl⟩ := hX
      exact Triple.pure _ ⟨_, ⟨.text .nil, .null .nil, .null .nil, [], [], .null, .null, .refl _⟩, rfl⟩
    · obtain ⟨ds, hm, rfl⟩ := hX
      obtain ⟨Y, hp, hG⟩ := gotC_one hat hn hnames hx (.some hm) []
      refine Triple.perm (Triple.pure _ hG) (List.Perm.trans ?_ hp)
      refine ((flat_focus hn hx cs).append_left _).trans ?_
      rw [hax.absent.2]
  | copy x y =>
    simp only [clientStep] at h
    split at h
    case h_2 => cases h
    rename_i w hw
    split at h
    case isFalse => cases h
    rename_i hc
    cases h
    have hx := htarget x (.inl ⟨y, .inl rfl⟩)
    have hax := hat x
    rw [hc.1] at hax
    have hay := hat y
    rw [hw] at hay
    obtain ⟨m, hm, hmc⟩ := hay.object
    simp only [cstep, hm]
    refine Triple.bind (copyClient_makes hmc hc.2 fun c hc => seen hm hc) fun m' X hX => ?_
    obtain ⟨ds, hm', rfl⟩ := hX
    obtain ⟨Y, hp, hG⟩ := gotC_one hat hn hnames hx (.some hm') []
    refine Triple.perm (Triple.pure _ hG) (List.Perm.trans ?_ hp)
    refine ((flat_focus hn hx cs).append_left _).trans ?_
    rw [hax.absent.2]
  | assign x y =>
    simp only [clientStep] at h
    split at h
    case h_2 => cases h
    rename_i v w hv hw
    have hax := hat x
    rw [hv] at hax
    have hay := hat y
    rw [hw] at hay
    obtain ⟨m, hm, hmc⟩ := hax.object
    obtain ⟨n, hn', hnc⟩ := hay.object
    have hx := inNames hm
    simp only [cstep, hm, hn']
    by_cases hxy : x = y
    · rw [if_pos hxy] at h
      cases h
      rw [if_pos hxy]
      exact Triple.pure _ ⟨cs, [], hat, hnames, by simp [lostBy, hxy], by simp⟩
    · rw [if_neg hxy] at h
      rw [if_neg hxy]
      split at h
      case isFalse => cases h
      rename_i hI
      cases h
      refine Triple.perm (P := cs x ++ restCells names cs x) ?_ (flat_focus hn hx cs)
      refine Triple.bind (assignClient_triple hmc hnc hI fun c hc => mem_rest (inNames hn') (Ne.symm hxy) hc) fun r X hX => ?_
      obtain ⟨es, M, hr, hM, rfl⟩ := hX
      obtain ⟨Y, hp, hG⟩ := gotC_one hat hn hnames hx (.some hr) M
      rw [hM, show v.texts = lostBy s (.assign x y) by simp [lostBy, hxy, hv]] at hG
      exact Triple.perm (Triple.pure _ hG) hp
  | move x y =>
    simp only [clientStep] at h
    split at h
    case h_2 => cases h
    rename_i w hw
    split at h
    case isFalse => cases h
    rename_i hc
    cases h
    have hx := htarget x (.inl ⟨y, .inr rfl⟩)
    have hax := hat x
    rw [hc] at hax
    have hay := hat y
    rw [hw] at hay
    obtain ⟨m, hm, hmc⟩ := hay.object
    have hxy : x ≠ y := by rintro rfl; rw [hc] at hw; cases hw
    simp only [cstep, hm]
    refine Triple.bind (Q := fun r X => r = (m, .emptied) ∧ X = names.flatMap cs) (Triple.pure _ ⟨rfl, rfl⟩) fun r X hX => ?_
    obtain ⟨rfl, rfl⟩ := hX
    refine Triple.perm (Triple.pure _ ⟨updCells (updCells cs y []) x (cs y), [], clientAt_update (clientAt_update hat (.some gone_cells)) (.some hmc),
      setClient_names (setClient_names hnames (inNames hm) _) hx _, rfl, rfl⟩) ?_
    rw [List.append_nil]
    refine List.Perm.trans ?_ (flat_update hn hx _ _).symm
    have h1 := flat_focus hn hx (updCells cs y [])
    have h2 : updCells cs y [] x = [] := by simp [updCells, hax.absent.2]
    rw [h2, List.nil_append] at h1
    have h3 := flat_update hn (inNames hm) cs []
    exact (flat_focus hn (inNames hm) cs).trans ((h3.symm.trans h1).append_left _)
  | moveAssign x y =>
    simp only [clientStep] at h
    split at h
    case h_2 => cases h
    rename_i v w hv hw
    have hax := hat x
    rw [hv] at hax
    have hay := hat y
    rw [hw] at hay
    obtain ⟨m, hm, hmc⟩ := hax.object
    obtain ⟨n, hn', hnc⟩ := hay.object
    have hx := inNames hm
    have hy := inNames hn'
    simp only [cstep, hm, hn']
    by_cases hxy : x = y
    · rw [if_pos hxy] at h
      cases h
      rw [if_pos hxy]
      exact Triple.pure _ ⟨cs, [], hat, hnames, by simp [lostBy], by simp⟩
    · rw [if_neg hxy] at h
      rw [if_neg hxy]
      cases h
      refine Triple.perm (P := cs x ++ restCells names cs x) ?_ (flat_focus hn hx cs)
      refine Triple.bind (Q := fun r X => r = (n, .emptied) ∧ X = restCells names cs x) ?_ fun r X hX => ?_
      · unfold ClientObj.moveAssign
        refine ((destroyClient_frees hmc).keep _).bind fun _ X hX => ?_
        exact Triple.pure _ ⟨rfl, hX⟩
      obtain ⟨rfl, rfl⟩ := hX
      refine Triple.perm (Triple.pure _ ⟨updCells (updCells cs y []) x (cs y), [], clientAt_update (clientAt_update hat (.some gone_cells)) (.some hnc),
        setClient_names (setClient_names hnames hy _) hx _, rfl, rfl⟩) ?_
      rw [List.append_nil]
      refine List.Perm.trans ?_ (flat_update hn hx _ _).symm
      have hn2 : (names.filter (· ≠ x)).Nodup := hn.filter _
      have hy2 : y ∈ names.filter (· ≠ x) := List.mem_filter.mpr ⟨hy, by simpa using Ne.symm hxy⟩
      exact (flat_focus hn2 hy2 cs).trans (((flat_update hn2 hy2 cs []).symm).append_left _)
  | setName x t =>
    simp only [clientStep] at h
    split at h
    case h_2 => cases h
    rename_i v n hv hnt
    split at h
    case isTrue => cases h
    rename_i hne
    cases h
    have hax := hat x
    rw [hv] at hax
    obtain ⟨m, hm, hmc⟩ := hax.object
    have hx := inNames hm
    obtain ⟨ca, cc, h1, h2, hp⟩ := hmc.rest
    simp only [cstep, hm]
    refine Triple.bind (Q := fun (r : ClientObj) X => ∃ ds, ClientCells r { v with name := some n } ds ∧ X = ds ++ restCells names cs x) ?_ fun r X hX => ?_
    · unfold ClientObj.setName
      refine Triple.bind (readName_triple hat t hnt (fun y v w _ hv hw c hc => seen hv (mem_name (cellsOf hv hw) c hc))
        (fun y v w _ hv hw c hc => seen hv (mem_log (cellsOf hv hw) c hc))) fun r X hX => ?_
      obtain ⟨rfl, rfl⟩ := hX
      refine Triple.perm (P := fieldCells [m.name] [v.name] ++ (fieldCells [m.log] [v.log] ++ (fieldCells [m.response] [v.response] ++ (ca ++ cc)) ++ restCells names cs x)) ?_
        ((flat_focus hn hx cs).trans ((hp.append_right _).trans (by permute)))
      refine ((deleteText_frees hmc.name).keep _).bind fun _ X hX => ?_
      subst hX
      refine Triple.bind (readName_triple hat t hnt (fun y v' w ht hv' hw c hc => ?_) (fun y v' w ht hv' hw c hc => ?_)) fun r' X hX => ?_
      · have hyx : y ≠ x := by rintro rfl; exact hne ht
        exact List.mem_append_right _ (mem_rest (inNames hv') hyx (mem_name (cellsOf hv' hw) c hc))
      · by_cases hyx : y = x
        · subst hyx
          rw [hm] at hv'
          cases hv'
          rw [hv] at hw
          cases hw
          simp [hc]
        · exact List.mem_append_right _ (mem_rest (inNames hv') hyx (mem_log (cellsOf hv' hw) c hc))
      obtain ⟨rfl, rfl⟩ := hX
      refine Triple.bind (Makes.alloc (.chars r')) fun a X hX => ?_
      obtain ⟨_, rfl, rfl⟩ := hX
      refine Triple.pure _ ⟨[(a, .chars r')] ++ (fieldCells [m.log] [v.log] ++ (fieldCells [m.response] [v.response] ++ (ca ++ cc))),
        ⟨.text .nil, hmc.log, hmc.response, ca, cc, h1, h2, .refl _⟩, by simp⟩
    · obtain ⟨ds, hr, rfl⟩ := hX
      obtain ⟨Y, hp, hG⟩ := gotC_one hat hn hnames hx (.some hr) []
      exact Triple.perm (Triple.pure _ hG) hp
  | setCredential x t =>
    simp only [clientStep] at h
    split at h
    case h_2 => cases h
    rename_i v n hv hnt
    split at h
    case isTrue => cases h
    rename_i hne
    cases h
    have hax := hat x
    rw [hv] at hax
    obtain ⟨m, hm, hmc⟩ := hax.object
    have hx := inNames hm
    obtain ⟨ca, cc, h1, h2, hp⟩ := hmc.rest
    simp only [cstep, hm]
    refine Triple.bind (Q := fun (r : ClientObj) X => ∃ ds, ClientCells r { v with credential := some n } ds ∧ X.Perm (ds ++ restCells names cs x)) ?_ fun r X hX => ?_
    · unfold ClientObj.setCredential
      refine Triple.perm (P := cc ++ (fieldCells [m.name] [v.name] ++ (fieldCells [m.log] [v.log] ++ (fieldCells [m.response] [v.response] ++ ca)) ++ restCells names cs x)) ?_
        ((flat_focus hn hx cs).trans ((hp.append_right _).trans (by permute)))
      refine ((deleteObject_frees h2).keep _).bind fun _ X hX => ?_
      subst hX
      refine Triple.bind (Q := fun q X => ∃ ds es, ObjCells q (some [n.1, n.2]) ds ∧ es.Perm ds ∧ X = es ++
        (fieldCells [m.name] [v.name] ++ (fieldCells [m.log] [v.log] ++ (fieldCells [m.response] [v.response] ++ ca)) ++ restCells names cs x)) ?_ fun q X hX => ?_
      · cases t with
        | texts u p =>
          cases hnt
          unfold copyCredential
          refine Triple.bind (newFields_makes [u, p]) fun fs X hX => ?_
          obtain ⟨ds, ⟨hf, hd⟩, rfl⟩ := hX
          refine Triple.bind (Makes.alloc (.obj fs)) fun a X hX => ?_
          obtain ⟨_, rfl, rfl⟩ := hX
          refine Triple.pure _ ⟨_, (a, .obj fs) :: ds, .set hf, hd.cons _, ?_⟩
          simp
        | of y =>
          simp only [credentialTexts, Option.bind_eq_some_iff] at hnt
          obtain ⟨w, hw, hwc⟩ := hnt
          have hay := hat y
          rw [hw] at hay
          obtain ⟨k, hk, hkc⟩ := hay.object
          obtain ⟨ka, kc, k1, k2, kp⟩ := hkc.rest
          have hyx : y ≠ x := by rintro rfl; exact hne rfl
          simp only [copyCredential, hk]
          rw [hwc] at k2
          refine (copyObject_makes k2 fun c hc => ?_).post fun q X hX => ?_
          · exact List.mem_append_right _ (mem_rest (inNames hk) hyx (kp.mem_iff.mpr (by simp [hc])))
          · obtain ⟨ds, hd, rfl⟩ := hX
            exact ⟨_, .refl _, ds, ds, hd, .refl _, rfl⟩
      · obtain ⟨ds, es, hd, hpe, rfl⟩ := hX
        refine Triple.pure _ ⟨fieldCells [m.name] [v.name] ++ (fieldCells [m.log] [v.log] ++ (fieldCells [m.response] [v.response] ++ (ca ++ ds))),
          ⟨hmc.name, hmc.log, hmc.response, ca, ds, h1, hd, .refl _⟩, (hpe.append_right _).trans ?_⟩
        permute
    · obtain ⟨ds, hr, hX⟩ := hX
      obtain ⟨Y, hp, hG⟩ := gotC_one hat hn hnames hx (.some hr) []
      exact Triple.perm (Triple.pure _ hG) (hX.trans hp)
  | session x op =>
    simp only [clientStep] at h
    split at h
    case h_2 => cases h
    rename_i v hv
    rw [Option.map_eq_some_iff] at h
    obtain ⟨w, hw, rfl⟩ := h
    have hax := hat x
    rw [hv] at hax
    obtain ⟨m, hm, hmc⟩ := hax.object
    have hx := inNames hm
    simp only [cstep, hm]
    refine Triple.perm (P := cs x ++ restCells names cs x) ?_ (flat_focus hn hx cs)
    refine ((session_triple hmc op hw).frame _).bind fun r X hX => ?_
    obtain ⟨Y, rfl, es, M, hr, hM, rfl⟩ := hX
    obtain ⟨Y, hp, hG⟩ := gotC_one hat hn hnames hx (.some hr) M
    rw [hM, show lostIn op = lostBy s (.session x op) by cases op <;> rfl] at hG
    exact Triple.perm (Triple.pure _ hG) (by rwa [List.append_assoc])
  | destroy x =>
    simp only [clientStep] at h
    split at h
    case h_2 => cases h
    rename_i v hv
    cases h
    have hax := hat x
    rw [hv] at hax
    obtain ⟨m, hm, hmc⟩ := hax.object
    have hx := inNames hm
    simp only [cstep, hm]
    refine Triple.perm (P := cs x ++ restCells names cs x) ?_ (flat_focus hn hx cs)
    refine ((destroyClient_frees hmc).keep _).bind fun _ X hX => ?_
    subst hX
    obtain ⟨Y, hp, hG⟩ := gotC_one (x := x) hat hn hnames hx .none []
    exact Triple.perm (Triple.pure _ hG) hp

/-- Clients show values, and the heap consists of exactly their cells and leaked ones. -/
def CRel (leaked : List Cell) (o : Clients) (s : ClientValues) (h : Heap) : Prop :=
  ∃ (cs : Nat → List Cell) (names : List Nat), (∀ x, ClientAt (o x) (s x) (cs x)) ∧ names.Nodup ∧
    (∀ x, o x ≠ none → x ∈ names) ∧ Exact h (names.flatMap cs ++ leaked)

theorem cstep_refines {h : Heap} {s' : ClientValues} {leaked : List Cell} (hR : CRel leaked o s h) (op : COp) (hs : clientStep s op = some s') :
    ∃ o' h' more, cstep o op h = .ok (o', h') ∧ CRel (more ++ leaked) o' s' h' ∧ more.length = lostBy s op := by
  have key : ∃ x, ∀ z, (∃ y, op = .copy z y ∨ op = .move z y) ∨ (∃ t, op = .create z t) → z = x := by
    cases op with
    | create x t => exact ⟨x, by rintro z (⟨y, h | h⟩ | ⟨_, h⟩) <;> cases h; rfl⟩
    | copy x y => exact ⟨x, by rintro z (⟨y, h | h⟩ | ⟨_, h⟩) <;> cases h; rfl⟩
    | move x y => exact ⟨x, by rintro z (⟨y, h | h⟩ | ⟨_, h⟩) <;> cases h; rfl⟩
    | _ => exact ⟨0, by rintro z (⟨y, h | h⟩ | ⟨_, h⟩) <;> cases h⟩
  obtain ⟨x, hx⟩ := key
  obtain ⟨cs, names, hat, hn, hnames, hE⟩ := hR
  have : ∃ names : List Nat, names.Nodup ∧ x ∈ names ∧ (∀ x, o x ≠ none → x ∈ names) ∧ Exact h (names.flatMap cs ++ leaked) := by
    by_cases hx : x ∈ names
    · exact ⟨names, hn, hx, hnames, hE⟩
    · refine ⟨x :: names, List.nodup_cons.mpr ⟨hx, hn⟩, List.mem_cons_self .., fun y hy => List.mem_cons_of_mem _ (hnames y hy), ?_⟩
      have ho : o x = none := Classical.byContradiction fun h => hx (hnames x h)
      have hax := hat x
      rw [ho] at hax
      have : cs x = [] := by
        revert hax
        generalize s x = sx
        generalize cs x = cx
        intro hax
        cases hax
        rfl
      rw [List.flatMap_cons, this]
      exact hE
  obtain ⟨names, hn, hxn, hnames, hE⟩ := this
  obtain ⟨o', h', X, e, ⟨cs', M, h1, h2, hM, rfl⟩, hE'⟩ := cstep_triple hat hn hnames op (fun z hz => hx z hz ▸ hxn) hs h leaked hE
  exact ⟨o', h', M, e, ⟨cs', names, h1, hn, h2, by rwa [List.append_assoc] at hE'⟩, hM⟩

theorem crun_refines {h : Heap} {s' : ClientValues} {leaked : List Cell} (hR : CRel leaked o s h) (ops : List COp) (hs : clientRun s ops = some s') :
    ∃ o' h' more, crun o ops h = .ok (o', h') ∧ CRel (more ++ leaked) o' s' h' ∧ more.length = lostBlocks s ops := by
  induction ops generalizing o s h leaked with
  | nil =>
    cases hs
    exact ⟨o, h, [], rfl, hR, rfl⟩
  | cons p ps ih =>
    simp only [clientRun, Option.bind_eq_some_iff] at hs
    obtain ⟨s1, h1, h2⟩ := hs
    obtain ⟨o1, g1, m1, e1, hR1, hm1⟩ := cstep_refines hR p h1
    obtain ⟨o2, g2, m2, e2, hR2, hm2⟩ := ih hR1 h2
    refine ⟨o2, g2, m2 ++ m1, ?_, by rwa [List.append_assoc], ?_⟩
    · rw [crun, bind_ok e1]
      exact e2
    · simp only [lostBlocks, h1, Option.map_some, Option.getD_some, List.length_append]
      omega

theorem CRel.empty : CRel [] (fun _ => none) (fun _ => none) Heap.empty :=
  ⟨fun _ => [], [], fun _ => .none, List.nodup_nil, fun _ h => absurd rfl h, ⟨List.nodup_nil, fun _ _ => ⟨nofun, nofun⟩, nofun⟩⟩

end Verif.Proofs
