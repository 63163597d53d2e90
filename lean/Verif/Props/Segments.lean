import Verif.Proofs.Ehlo
import Verif.Props.Reply
import Verif.Spec.Script
/-!
# C09: the EHLO reply in pieces
-/
namespace Verif.Props
open Verif Verif.Model Verif.Spec Verif.Proofs

variable {env : Env}

/-- The mechanisms offered by the lines: those of the first line that advertises authentication; none if there is no such line. -/
def AuthOffer : List Bytes → Option AuthOptions → Prop
  | [], o => o = none
  | l :: ls, o => (IsAuthLine l ∧ ∃ a, o = some a ∧ MechanismsOf l a) ∨ (¬ IsAuthLine l ∧ AuthOffer ls o)

theorem authOffer_of_first {pre post : List Bytes} {l : Bytes} {a : AuthOptions} (h : ∀ m ∈ pre, ¬ IsAuthLine m) (hl : IsAuthLine l)
    (ha : MechanismsOf l a) : AuthOffer (pre ++ l :: post) (some a) := by
  induction pre with
  | nil => exact .inl ⟨hl, a, rfl, ha⟩
  | cons m pre ih => exact .inr ⟨h m (by simp), ih fun m' h' => h m' (by simp [h'])⟩

theorem authOffer_of_none {ls : List Bytes} (h : ∀ m ∈ ls, ¬ IsAuthLine m) : AuthOffer ls none := by
  induction ls with
  | nil => rfl
  | cons m ls ih => exact .inr ⟨h m (by simp), ih fun m' h' => h m' (by simp [h'])⟩

theorem first_auth (ls : List Bytes) : (∀ m ∈ ls, ¬ IsAuthLine m) ∨
    ∃ pre l post, ls = pre ++ l :: post ∧ (∀ m ∈ pre, ¬ IsAuthLine m) ∧ IsAuthLine l := by
  induction ls with
  | nil => exact .inl (by simp)
  | cons m ls ih =>
    by_cases hm : IsAuthLine m
    · exact .inr ⟨[], m, ls, rfl, by simp, hm⟩
    · rcases ih with h | ⟨pre, l, post, rfl, h, hl⟩
      · exact .inl (by simpa [hm] using h)
      · exact .inr ⟨m :: pre, l, post, rfl, by simpa [hm] using h, hl⟩

/-- What is extracted from a text with at least two lines is what its lines offer. -/
theorem extract_offer {t : Bytes} (h0 : 0 ∉ t) (h2 : 2 ≤ (lines t).length) : AuthOffer (lines t) (extractAuthOptions (some t)) := by
  have hc : cstr t = t := cstr_eq_self h0
  rcases first_auth (lines t) with h | ⟨pre, l, post, e, h, hl⟩
  · rw [C08_nothing_reported (some t) (by intro s hs; cases hs; rw [hc]; exact h)]
    exact authOffer_of_none h
  · obtain ⟨a, ha, hm⟩ := C08_mechanisms_of_first_auth_line t pre post l (by rw [hc]; exact h2) (by rw [hc]; exact e) hl h
    rw [ha, e]
    exact authOffer_of_first h hl hm

/-- Lines that offer the same, one by one. -/
def SameOffer : List Bytes → List Bytes → Prop
  | [], [] => True
  | x :: xs, y :: ys => (x = y ∨ (¬ IsAuthLine x ∧ ¬ IsAuthLine y)) ∧ SameOffer xs ys
  | _, _ => False

theorem sameOffer_refl : ∀ xs : List Bytes, SameOffer xs xs
  | [] => trivial
  | _ :: xs => ⟨.inl rfl, sameOffer_refl xs⟩

theorem sameOffer_append : ∀ {a b c d : List Bytes}, SameOffer a b → SameOffer c d → SameOffer (a ++ c) (b ++ d)
  | [], [], _, _, _, h => h
  | _ :: _, _ :: _, _, _, ⟨h1, h2⟩, h => ⟨h1, sameOffer_append h2 h⟩
  | [], _ :: _, _, _, h, _ => h.elim
  | _ :: _, [], _, _, h, _ => h.elim

theorem offer_of_same : ∀ {a b : List Bytes} {o : Option AuthOptions}, SameOffer a b → AuthOffer a o → AuthOffer b o
  | [], [], _, _, h => h
  | x :: xs, y :: ys, o, ⟨h1, h2⟩, h => by
    rcases h1 with rfl | ⟨hx, hy⟩
    · rcases h with h | ⟨hx, h⟩
      · exact .inl h
      · exact .inr ⟨hx, offer_of_same h2 h⟩
    · rcases h with ⟨h, _⟩ | ⟨_, h⟩
      · exact absurd h hx
      · exact .inr ⟨hy, offer_of_same h2 h⟩
  | [], _ :: _, _, h, _ => h.elim
  | _ :: _, [], _, h, _ => h.elim


/-! ### Where a piece of the reply ends -/

/-- The lines up to some piece: the last of them starts with `250 ` exactly when nothing is missing. -/
theorem ehlo_last {ls i rest : List Bytes} {l : Bytes} (h : EhloReply ls) (e : ls = i ++ [l] ++ rest) :
    (rest = [] → b!"250 " <+: l) ∧ (rest ≠ [] → b!"250-" <+: l) := by
  obtain ⟨init, last, rfl, h1, h2⟩ := h.shape
  constructor
  · rintro rfl
    rw [List.append_nil] at e
    have := (List.append_inj' e rfl).2
    simp only [List.cons.injEq, and_true] at this
    rw [← this]; exact h2
  · intro hr
    rcases List.eq_nil_or_concat rest with rfl | ⟨r', x, rfl⟩
    · exact absurd rfl hr
    · have e' : init ++ [last] = (i ++ [l] ++ r') ++ [x] := by rw [e]; simp
      have := (List.append_inj' e' rfl).1
      exact h1 l (by rw [this]; simp)

theorem not_both {l : Bytes} (h : b!"250-" <+: l) : ¬ b!"250 " <+: l ∧ ¬ b!"250 " <+: 10 :: l := by
  obtain ⟨r, rfl⟩ := h
  constructor
  · rintro ⟨r', e⟩
    simp at e
  · rintro ⟨r', e⟩
    simp at e

theorem complete_wire {i : List Bytes} {l : Bytes} (hi : ∀ m ∈ i, ∀ c ∈ m, c ≠ 13) (hl : ∀ c ∈ l, c ≠ 13) :
    containsAllOptions (wire (i ++ [l])) = true ↔ b!"250 " <+: l := by
  have hw : withoutFinalCRLF (wire (i ++ [l])) (wire i ++ l) := .inl (by simp [wire])
  rw [C07_complete_iff _ _ hw, lines_wire i hi, lines_noCR l hl]
  constructor
  · rintro ⟨pre, m, e, h⟩
    have := (List.append_inj' e rfl).2
    simp only [List.cons.injEq, and_true] at this
    rw [this]; exact h
  · intro h
    exact ⟨i, l, rfl, h⟩

theorem lines_cr (l : Bytes) (hl : ∀ c ∈ l, c ≠ 13) : lines (l ++ [13]) = [l ++ [13]] := by
  obtain ⟨m, ms, h1, h2⟩ := lines_append_noCR l [13] hl
  have : lines [13] = [[13]] := rfl
  rw [this] at h1
  cases h1
  exact h2

theorem wire_dropLast (i : List Bytes) (l : Bytes) : (wire (i ++ [l])).dropLast = wire i ++ (l ++ [13]) := by
  have : wire (i ++ [l]) = (wire i ++ (l ++ [13])) ++ [10] := by simp [wire]
  rw [this, List.dropLast_concat]

theorem complete_dropLast {i : List Bytes} {l : Bytes} (hi : ∀ m ∈ i, ∀ c ∈ m, c ≠ 13) (hl : ∀ c ∈ l, c ≠ 13) :
    containsAllOptions ((wire (i ++ [l])).dropLast) = true ↔ b!"250 " <+: l := by
  rw [wire_dropLast]
  have hw : withoutFinalCRLF (wire i ++ (l ++ [13])) (wire i ++ (l ++ [13])) := by
    refine .inr ⟨rfl, ?_⟩
    rintro ⟨u, e⟩
    have e' : (wire i ++ l) ++ [13] = (u ++ [13]) ++ [10] := by simpa using e
    have := (List.append_inj' e' rfl).2
    simp at this
  rw [C07_complete_iff _ _ hw, lines_wire i hi, lines_cr l hl]
  constructor
  · rintro ⟨pre, m, e, h⟩
    have := (List.append_inj' e rfl).2
    simp only [List.cons.injEq, and_true] at this
    rw [← this] at h
    exact (prefix_append_cr (by decide)).mp h
  · intro h
    exact ⟨i, l ++ [13], rfl, (prefix_append_cr (by decide)).mpr h⟩

/-- Over TLS the text put together is the reply without its last byte. -/
theorem joined_dropLast (gs : List (List Bytes)) (hg : ∀ g ∈ gs, g ≠ []) (A : Bytes) (hA : A = A.dropLast ++ [10]) :
    A.dropLast ++ joined List.dropLast (gs.map wire) = (A ++ wire gs.flatten).dropLast := by
  induction gs generalizing A with
  | nil => simp [joined, wire]
  | cons g gs ih =>
    have hgn := hg g (by simp)
    rcases List.eq_nil_or_concat g with e | ⟨i, l, e⟩
    · exact absurd e hgn
    · rw [List.concat_eq_append] at e
      have hd : wire g = (wire g).dropLast ++ [10] := by
        rw [e, wire_dropLast]
        simp [wire]
      have hne : wire g ≠ [] := by rw [hd]; simp
      have h1 : (A ++ wire g).dropLast = A ++ (wire g).dropLast := List.dropLast_append_of_ne_nil hne
      have := ih (fun g' h' => hg g' (by simp [h'])) (A ++ wire g) (by rw [h1, List.append_assoc, ← hd])
      rw [List.flatten_cons, wire_append, ← List.append_assoc, ← this, h1]
      simp only [joined, List.map_cons, List.flatten_cons]
      conv => rhs; rw [hA]
      simp

/-- In clear the first line of every later batch gets an LF in front of it. -/
def bump : List Bytes → List Bytes
  | [] => []
  | l :: ls => (10 :: l) :: ls

theorem joined_wire (gs : List (List Bytes)) (hg : ∀ g ∈ gs, g ≠ []) : joined id (gs.map wire) = wire (gs.map bump).flatten := by
  induction gs with
  | nil => rfl
  | cons g gs ih =>
    have := ih (fun g' h' => hg g' (by simp [h']))
    cases g with
    | nil => exact absurd rfl (hg [] (by simp))
    | cons l ls =>
      simp only [joined, List.map_cons, List.flatten_cons, id] at this ⊢
      rw [this, wire_append]
      simp [bump, wire_cons]

/-- The last line of the text put together. -/
theorem marked_last (g : List Bytes) (hg : g ≠ []) (gs : List (List Bytes)) (hgs : ∀ g ∈ gs, g ≠ []) :
    ∃ i l i' l', (g :: gs).flatten = i ++ [l] ∧ g ++ (gs.map bump).flatten = i' ++ [l'] ∧ (l' = l ∨ l' = 10 :: l) ∧
      ((gs = [] ∨ ∃ a z, gs = a ++ [z] ∧ 2 ≤ z.length) → l' = l) := by
  rcases List.eq_nil_or_concat gs with rfl | ⟨a, z, rfl⟩
  · rcases List.eq_nil_or_concat g with rfl | ⟨i, l, rfl⟩
    · exact absurd rfl hg
    · exact ⟨i, l, i, l, by simp, by simp, .inl rfl, fun _ => rfl⟩
  · rw [List.concat_eq_append] at hgs ⊢
    have hz := hgs z (by simp)
    cases z with
    | nil => exact absurd rfl hz
    | cons m ms =>
      rcases List.eq_nil_or_concat ms with rfl | ⟨i, l, rfl⟩
      · refine ⟨g ++ a.flatten, m, g ++ (a.map bump).flatten, 10 :: m, by simp, by simp [bump], .inr rfl, ?_⟩
        rintro (h | ⟨a', z', e, h2⟩)
        · simp at h
        · have := (List.append_inj' e rfl).2
          simp only [List.cons.injEq, and_true] at this
          rw [← this] at h2
          simp at h2
      · exact ⟨g ++ a.flatten ++ m :: i, l, g ++ (a.map bump).flatten ++ (10 :: m) :: i, l, by simp, by simp [bump], .inl rfl, fun _ => rfl⟩

theorem no_cr_bump (gs : List (List Bytes)) (h : ∀ g ∈ gs, ∀ l ∈ g, ∀ c ∈ l, c ≠ 0 ∧ c ≠ 13) :
    ∀ l ∈ (gs.map bump).flatten, ∀ c ∈ l, c ≠ 0 ∧ c ≠ 13 := by
  intro l hl
  obtain ⟨x, hx, hlx⟩ := List.mem_flatten.mp hl
  obtain ⟨g, hg, rfl⟩ := List.mem_map.mp hx
  cases g with
  | nil => simp [bump] at hlx
  | cons m ms =>
    simp only [bump, List.mem_cons] at hlx
    rcases hlx with rfl | hlx
    · intro c hc
      rcases List.mem_cons.mp hc with rfl | hc
      · decide
      · exact h _ hg m (by simp) c hc
    · exact h _ hg l (by simp [hlx])

theorem not_auth_lf (l : Bytes) : ¬ IsAuthLine (10 :: l) := by
  rintro (⟨r, e⟩ | ⟨r, e⟩) <;> simp at e

theorem sameOffer_bump (gs : List (List Bytes)) (h : ∀ g ∈ gs, ∀ l, g.head? = some l → ¬ IsAuthLine l) :
    SameOffer (gs.map bump).flatten gs.flatten := by
  induction gs with
  | nil => trivial
  | cons g gs ih =>
    simp only [List.map_cons, List.flatten_cons]
    refine sameOffer_append ?_ (ih fun g' h' => h g' (by simp [h']))
    cases g with
    | nil => trivial
    | cons l ls => exact ⟨.inr ⟨not_auth_lf l, h (l :: ls) (by simp) l rfl⟩, sameOffer_refl ls⟩

theorem wire_head {g : List Bytes} {ls : List Bytes} (h : EhloReply ls) (hs : ∀ l ∈ g, l ∈ ls) (hne : g ≠ []) :
    b!"250" <+: wire g ∧ b!"250" <+: (wire g).dropLast := by
  cases g with
  | nil => exact absurd rfl hne
  | cons l g =>
    have hl : b!"250" <+: l := by
      obtain ⟨init, last, rfl, h1, h2⟩ := h.shape
      rcases List.mem_append.mp (hs l (by simp)) with hm | hm
      · obtain ⟨r, hr⟩ := h1 l hm
        exact ⟨b!"-" ++ r, by rw [← hr]; rfl⟩
      · simp only [List.mem_singleton] at hm
        obtain ⟨r, hr⟩ := h2
        exact ⟨b!" " ++ r, by rw [hm, ← hr]; rfl⟩
    obtain ⟨r, rfl⟩ := hl
    constructor
    · exact ⟨r ++ 13 :: 10 :: wire g, by simp [wire_cons]⟩
    · refine ⟨(r ++ 13 :: 10 :: wire g).dropLast, ?_⟩
      have : ∀ X : Bytes, X ≠ [] → (b!"250" ++ X).dropLast = b!"250" ++ X.dropLast := fun X h => List.dropLast_append_of_ne_nil h
      rw [wire_cons, List.append_assoc, this _ (by simp)]

/-! ### The two channels -/

theorem sendBio_ok {b : Bio} {s : St} {n : Nat} {k : SendKind} {cmd : Bytes} {err : Int} (hb : s.client.bio = some b)
    (hs : env.send s.hist (.tls b.id b.fd) (cstr cmd) = .sent n) :
    Runs env (sendBioWith cleanup k cmd err) (fun r s' => r = 0 ∧ s' = St.snoc s (.send k (.tls b.id b.fd) (cstr cmd)
      (.sent (min n (cstr cmd).length)))) s := by
  unfold sendBioWith
  apply runs_get
  rw [hb]
  dsimp only
  unfold sysSend
  refine runs_iff.mpr ⟨0, _, ?_, rfl, rfl⟩
  simp [bind_run, M.ask, hs, normSend, pure_run, St.snoc]

theorem sendRaw_ok {s : St} {n : Nat} {k : SendKind} {cmd : Bytes} {err : Int}
    (hs : env.send s.hist (.raw s.client.sock) (cstr cmd) = .sent n) :
    Runs env (sendRaw k cmd err) (fun r s' => r = 0 ∧ s' = St.snoc s (.send k (.raw s.client.sock) (cstr cmd)
      (.sent (min n (cstr cmd).length)))) s := by
  unfold sendRaw sendRawWith
  apply runs_get
  unfold sysSend
  refine runs_iff.mpr ⟨0, _, ?_, rfl, rfl⟩
  simp [bind_run, M.ask, hs, normSend, pure_run, St.snoc]

/-- Reads that deliver something are at least one. -/
theorem clearBatch_ne (T : Nat) : ∀ p a, ClearBatch T p a → a ≠ [] := by
  rintro p _ ⟨w, ch, _, _, _, _, rfl⟩
  simp

theorem tlsRecord_ne (T : Nat) : ∀ p a, TlsRecord T p a → a ≠ [] := by
  rintro p _ ⟨w, _, rfl⟩
  simp

/-- The identification over TLS, with what is left of the reply. -/
theorem identify_tls {s : St} {b : Bio} {ls : List Bytes} {gs : List (List Bytes)} {rs : List RecvRes} {n : Nat} {err tc : Int}
    (hk : s.client.kind ≠ .smtp) (hb : s.client.bio = some b) (hlog : HasLog s)
    (hsend : env.send s.hist (.tls b.id b.fd) b!"ehlo localhost\r\n" = .sent n) (hls : EhloReply ls) (hcut : gs.flatten = ls)
    (hgs : ∀ g ∈ gs, g ≠ []) (harr : InTurn (TlsRecord s.client.timeout) (gs.map wire) rs) (hfuel : rs.length ≤ env.fuel)
    (hf : Feeds env (.tls b.id b.fd) rs s.hist) :
    Runs env (identify err tc) (fun r s' => r = 250 ∧ s'.client.authOptions = extractAuthOptions (some (wire ls).dropLast)) s := by
  cases gs with
  | nil =>
    obtain ⟨init, last, e, _⟩ := hls.shape
    rw [← hcut] at e
    simp at e
  | cons g gs =>
    have hz : ∀ x ∈ g :: gs, 0 ∉ wire x := by
      intro x hx
      apply wire_no_nul
      intro l hl h0
      exact (hls.plain l (by rw [← hcut]; exact List.mem_flatten.mpr ⟨x, hx, hl⟩) 0 h0).1 rfl
    have h250 : ∀ x ∈ g :: gs, b!"250" <+: (wire x).dropLast := fun x hx =>
      (wire_head hls (fun l hl => by rw [← hcut]; exact List.mem_flatten.mpr ⟨x, hx, hl⟩) (hgs x hx)).2
    have hlen := inTurn_length (tlsRecord_ne s.client.timeout) harr
    simp only [List.length_map, List.length_cons, List.map_cons] at hlen harr
    have hA : wire g = (wire g).dropLast ++ [10] := by
      rcases List.eq_nil_or_concat g with e | ⟨i, l, e⟩
      · exact absurd e (hgs g (by simp))
      · rw [List.concat_eq_append] at e
        rw [e, wire_dropLast]
        simp [wire]
    have htext : ∀ x : List (List Bytes), (∀ y ∈ x, y ≠ []) → (wire g).dropLast ++ joined List.dropLast (x.map wire) = (wire (g :: x).flatten).dropLast := by
      intro x hx
      rw [joined_dropLast x hx (wire g) hA, List.flatten_cons, wire_append]
    refine runs_mono (identify_pieces (k := s.client.kind) (v := s.client.sock) (b := some b) (T := s.client.timeout)
      (ch := .tls b.id b.fd) (f := List.dropLast) (D := TlsRecord s.client.timeout) err tc (wire g) (gs.map wire) ?_ rs harr
      (by simp; omega) hfuel s ⟨rfl, rfl, hb, rfl, hlog⟩ hf (s0 := s.hist) ?_ rfl ?_) ?_
    · intro p a rest s' hp hs' hD _ hf'
      obtain ⟨x, hx, rfl⟩ := List.mem_map.mp hp
      unfold getServerReply
      apply runs_get
      rw [if_neg (by rw [hs'.kind]; simp [hk])]
      exact getTlsReply_record hs'.bio hs'.log (by rw [hs'.timeout]; exact hD) (hz x (by simp [hx])) (h250 x (by simp [hx])) hf'
    · intro a rest s' hs' hD _ hf' hh
      unfold sendFb
      apply runs_get
      apply runs_get
      rw [if_neg (by rw [hs'.kind, hs'.bio]; simp [hk])]
      unfold sendTlsFb
      apply runs_bind
      refine runs_mono (sendBio_ok (n := n) hs'.bio (by rw [hh]; exact hsend)) ?_
      rintro _ s1 ⟨rfl, rfl⟩
      rw [if_neg (by simp)]
      have i1 : Idle s' (St.snoc s' (.send .cmd (.tls b.id b.fd) (cstr ehloCmd) (.sent (min n (cstr ehloCmd).length)))) := .snoc hs'.log rfl
      apply runs_bind
      refine runs_mono (getTlsReply_record (b := b) (i1.bio.trans hs'.bio) i1.log (by rw [i1.timeout, hs'.timeout]; exact hD) (hz g (by simp))
        (h250 g (by simp)) (i1.feeds hf')) ?_
      rintro _ s2 ⟨rfl, g2⟩
      rw [if_pos (by decide)]
      exact ⟨rfl, g2.kind.trans i1.kind, g2.sock.trans i1.sock, g2.bio.trans i1.bio, g2.timeout.trans i1.timeout, g2.log, g2.resp, g2.feeds⟩
    · intro x y e
      obtain ⟨x', y', rfl, rfl, rfl⟩ := List.map_eq_append_iff.mp e
      rw [htext x' (fun z hz => hgs z (by simp [hz]))]
      have hne : (g :: x').flatten ≠ [] := by
        cases g with
        | nil => exact absurd rfl (hgs [] (by simp))
        | cons l g => simp
      rcases List.eq_nil_or_concat (g :: x').flatten with e0 | ⟨i, l, e0⟩
      · exact absurd e0 hne
      · rw [List.concat_eq_append] at e0
        have hall : ls = i ++ [l] ++ y'.flatten := by
          rw [← hcut, ← e0]
          simp
        have hcr : ∀ m ∈ i ++ [l], ∀ c ∈ m, c ≠ 13 := fun m hm c hc => (hls.plain m (by rw [hall]; exact List.mem_append_left _ hm) c hc).2.2
        rw [e0, complete_dropLast (fun m hm => hcr m (by simp [hm])) (hcr l (by simp))]
        obtain ⟨h1, h2⟩ := ehlo_last hls hall
        constructor
        · intro h
          cases y' with
          | nil => rfl
          | cons z y' =>
            refine absurd h (not_both (h2 ?_)).1
            have := hgs z (by simp)
            cases z with
            | nil => exact absurd rfl this
            | cons m z => simp
        · intro h
          apply h1
          rw [List.map_eq_nil_iff] at h
          rw [h]; rfl
    · rintro r s' ⟨rfl, _, ha, _⟩
      refine ⟨rfl, ?_⟩
      rw [ha, htext gs (fun z hz => hgs z (by simp [hz])), hcut]


/-- The identification in clear, with what is left of the reply. -/
theorem identify_clear {s : St} {ls g : List Bytes} {gs : List (List Bytes)} {rs : List RecvRes} {n : Nat} {err tc : Int}
    (hk : s.client.kind = .smtp ∨ (s.client.bio = none ∧ gs = [])) (hlog : HasLog s)
    (hsend : env.send s.hist (.raw s.client.sock) b!"ehlo localhost\r\n" = .sent n) (hls : EhloReply ls) (hcut : (g :: gs).flatten = ls)
    (hgs : ∀ x ∈ g :: gs, x ≠ []) (harr : InTurn (ClearBatch s.client.timeout) ((g :: gs).map wire) rs) (hfuel : rs.length ≤ env.fuel)
    (hlast : gs = [] ∨ ∃ a z, gs = a ++ [z] ∧ 2 ≤ z.length)
    (hf : Feeds env (.raw s.client.sock) rs s.hist) :
    Runs env (identify err tc) (fun r s' => r = 250 ∧ Conn s.client.kind s.client.sock s.client.bio s.client.timeout s' ∧
      s'.client.authOptions = extractAuthOptions (some (wire (g ++ (gs.map bump).flatten))) ∧
      (gs = [] → s'.client.lastResponse = some (wire ls))) s := by
  have hz : ∀ x ∈ g :: gs, 0 ∉ wire x := by
    intro x hx
    apply wire_no_nul
    intro l hl h0
    exact (hls.plain l (by rw [← hcut]; exact List.mem_flatten.mpr ⟨x, hx, hl⟩) 0 h0).1 rfl
  have h250 : ∀ x ∈ g :: gs, b!"250" <+: wire x := fun x hx =>
    (wire_head hls (fun l hl => by rw [← hcut]; exact List.mem_flatten.mpr ⟨x, hx, hl⟩) (hgs x hx)).1
  have hlen := inTurn_length (clearBatch_ne s.client.timeout) harr
  simp only [List.length_map, List.length_cons, List.map_cons] at hlen harr
  have htext : ∀ x : List (List Bytes), (∀ y ∈ x, y ≠ []) → wire g ++ joined id (x.map wire) = wire (g ++ (x.map bump).flatten) := by
    intro x hx
    rw [joined_wire x hx, wire_append]
  refine runs_mono (identify_pieces (k := s.client.kind) (v := s.client.sock) (b := s.client.bio) (T := s.client.timeout)
    (ch := .raw s.client.sock) (f := id) (D := ClearBatch s.client.timeout) err tc (wire g) (gs.map wire) ?_ rs harr
    (by simp; omega) hfuel s ⟨rfl, rfl, rfl, rfl, hlog⟩ hf (s0 := s.hist) ?_ rfl ?_) ?_
  · intro p a rest s' hp hs' hD hfu hf'
    obtain ⟨x, hx, rfl⟩ := List.mem_map.mp hp
    have hk' : s.client.kind = .smtp := by
      rcases hk with hk | ⟨_, rfl⟩
      · exact hk
      · simp at hx
    unfold getServerReply
    apply runs_get
    rw [if_pos (by rw [hs'.kind]; simp [hk'])]
    rw [← hs'.sock] at hf'
    have := getRawReply_batch hs'.log (by rw [hs'.timeout]; exact hD) (hz x (by simp [hx])) (h250 x (by simp [hx])) hfu hf'
    rw [hs'.sock] at this
    exact this
  · intro a rest s' hs' hD hfu hf' hh
    unfold sendFb
    apply runs_get
    apply runs_get
    rw [if_pos (by rw [hs'.kind, hs'.bio]; rcases hk with hk | ⟨hk, _⟩ <;> simp [hk])]
    unfold sendRawFb
    apply runs_bind
    rw [← hs'.sock] at hsend hf' ⊢
    refine runs_mono (sendRaw_ok (n := n) (by rw [hh]; exact hsend)) ?_
    rintro _ s1 ⟨rfl, rfl⟩
    rw [if_neg (by simp)]
    have i1 : Idle s' (St.snoc s' (.send .cmd (.raw s'.client.sock) (cstr ehloCmd) (.sent (min n (cstr ehloCmd).length)))) := .snoc hs'.log rfl
    apply runs_bind
    refine runs_mono (getRawReply_batch i1.log (by rw [i1.timeout, hs'.timeout]; exact hD) (hz g (by simp))
      (h250 g (by simp)) hfu (i1.feeds hf')) ?_
    rintro _ s2 ⟨rfl, g2⟩
    rw [if_pos (by decide)]
    exact ⟨rfl, g2.kind.trans i1.kind, g2.sock.trans i1.sock, g2.bio.trans i1.bio, g2.timeout.trans i1.timeout, g2.log, g2.resp, g2.feeds⟩
  · intro x y e
    obtain ⟨x', y', rfl, rfl, rfl⟩ := List.map_eq_append_iff.mp e
    have hx' : ∀ z ∈ x', z ≠ [] := fun z hz => hgs z (by simp [hz])
    show containsAllOptions (wire g ++ _) = true ↔ _
    rw [htext x' hx']
    obtain ⟨i, l, i', l', e0, e1, h3, h4⟩ := marked_last g (hgs g (by simp)) x' hx'
    have hall : ls = i ++ [l] ++ y'.flatten := by
      rw [← hcut, ← e0]
      simp
    have hcr : ∀ m ∈ i' ++ [l'], ∀ c ∈ m, c ≠ 13 := by
      intro m hm c hc
      rw [← e1] at hm
      rcases List.mem_append.mp hm with hm | hm
      · exact (hls.plain m (by rw [← hcut]; simp [hm]) c hc).2.2
      · refine (no_cr_bump x' ?_ m hm c hc).2
        intro z hz k hk c' hc'
        have := hls.plain k (by rw [← hcut]; exact List.mem_flatten.mpr ⟨z, by simp [hz], hk⟩) c' hc'
        exact ⟨this.1, this.2.2⟩
    rw [e1, complete_wire (fun m hm => hcr m (by simp [hm])) (hcr l' (by simp))]
    obtain ⟨h1, h2⟩ := ehlo_last hls hall
    constructor
    · intro h
      cases y' with
      | nil => rfl
      | cons z y' =>
        have h5 := h2 (by
          have := hgs z (by simp)
          cases z with
          | nil => exact absurd rfl this
          | cons m z => simp)
        rcases h3 with rfl | rfl
        · exact absurd h (not_both h5).1
        · exact absurd h (not_both h5).2
    · intro h
      rw [List.map_eq_nil_iff] at h
      subst h
      rw [List.append_nil] at hlast
      rw [h4 hlast]
      exact h1 rfl
  · rintro r s' ⟨rfl, hc, ha, hr⟩
    refine ⟨rfl, hc, ?_, ?_⟩
    · rw [ha, ← htext gs (fun z hz => hgs z (by simp [hz]))]
      rfl
    · intro hg
      subst hg
      rw [hr rfl, ← hcut]
      simp

theorem offer_concat_nil {ls : List Bytes} {o : Option AuthOptions} (h : AuthOffer (ls ++ [[]]) o) : AuthOffer ls o := by
  induction ls with
  | nil =>
    rcases h with ⟨h, _⟩ | ⟨_, h⟩
    · rcases h with ⟨r, e⟩ | ⟨r, e⟩ <;> simp at e
    · exact h
  | cons l ls ih =>
    rcases h with h | ⟨h, h'⟩
    · exact .inl h
    · exact .inr ⟨h, ih h'⟩

/-! ### The theorems -/

/-- **C09, partial, TLS.** Over TLS the EHLO reply is understood whatever way its lines are spread over successive reads: the answer is
250, and the mechanisms kept are those of the first AUTH line. `hcut`: the reply `ls` is cut into the groups of lines `gs`, `harr`: each group
arrives in one read, after less than the timeout. Missing: a last line that is the only AUTH line (refuted below), and cuts
inside lines. -/
theorem C09_tls_partial (env : Env) (s : St) (b : Bio) (ls : List Bytes) (gs : List (List Bytes)) (rs : List RecvRes) (n : Nat)
    (hk : s.client.kind ≠ .smtp) (hb : s.client.bio = some b) (hlog : HasLog s)
    (hsend : env.send s.hist (.tls b.id b.fd) b!"ehlo localhost\r\n" = .sent n) (hls : EhloReply ls) (hcut : gs.flatten = ls)
    (hgs : ∀ g ∈ gs, g ≠ []) (harr : InTurn (TlsRecord s.client.timeout) (gs.map wire) rs) (hfuel : rs.length ≤ env.fuel)
    (hf : Feeds env (.tls b.id b.fd) rs s.hist)
    (hauth : ∀ l, ls.getLast? = some l → IsAuthLine l → ∃ m ∈ ls.dropLast, IsAuthLine m) :
    ∃ s', getServerSecureIdentification env s = (.ok 250, s') ∧ AuthOffer ls s'.client.authOptions := by
  have key : Runs env getServerSecureIdentification (fun r s' => r = 250 ∧ AuthOffer ls s'.client.authOptions) s := by
    unfold getServerSecureIdentification
    apply runs_bind
    refine wp_addLog hlog fun l op hl => ?_
    refine runs_mono (identify_tls (s := { s with client := { s.client with log := some l }, mem := s.mem ++ [op] }) hk hb ⟨l, rfl, hl⟩ hsend hls hcut hgs harr
      hfuel hf) ?_
    rintro r s' ⟨rfl, ha⟩
    refine ⟨rfl, ?_⟩
    rw [ha]
    obtain ⟨init, last, e, h1, h2⟩ := hls.shape
    have hz : 0 ∉ (wire ls).dropLast := fun h =>
      wire_no_nul ls (fun l hl h0 => (hls.plain l hl 0 h0).1 rfl) (List.dropLast_subset _ h)
    have hcr : ∀ m ∈ ls, ∀ c ∈ m, c ≠ 13 := fun m hm c hc => (hls.plain m hm c hc).2.2
    have hlines : lines (wire ls).dropLast = init ++ [last ++ [13]] := by
      rw [e, wire_dropLast, lines_wire init (fun m hm => hcr m (by rw [e]; simp [hm])), lines_cr last (hcr last (by rw [e]; simp))]
    have hau := hauth last (by rw [e]; simp)
    have hdl : ls.dropLast = init := by rw [e, List.dropLast_concat]
    rw [hdl] at hau
    have hcrl : ¬ IsAuthLine last → ¬ IsAuthLine (last ++ [13]) := by
      rintro h (h' | h')
      · exact h (.inl ((prefix_append_cr (by decide)).mp h'))
      · exact h (.inr ((prefix_append_cr (by decide)).mp h'))
    rw [e]
    rcases first_auth init with hn | ⟨pre, l, post, ei, hp, hl⟩
    · have hnl : ¬ IsAuthLine last := fun h => by
        obtain ⟨m, hm, hm'⟩ := hau h
        exact hn m hm hm'
      have : extractAuthOptions (some (wire ls).dropLast) = none := by
        refine C08_nothing_reported _ ?_
        intro t ht
        cases ht
        rw [cstr_eq_self hz, hlines]
        intro m hm
        rcases List.mem_append.mp hm with hm | hm
        · exact hn m hm
        · simp only [List.mem_singleton] at hm
          rw [hm]; exact hcrl hnl
      rw [← e, this, e]
      refine authOffer_of_none ?_
      intro m hm
      rcases List.mem_append.mp hm with hm | hm
      · exact hn m hm
      · simp only [List.mem_singleton] at hm
        rw [hm]; exact hnl
    · obtain ⟨a, h4, h5⟩ := C08_mechanisms_of_first_auth_line (wire ls).dropLast pre (post ++ [last ++ [13]]) l
        (by rw [cstr_eq_self hz, hlines, ei]; simp; omega) (by rw [cstr_eq_self hz, hlines, ei]; simp) hl hp
      rw [← e, h4, e, ei, List.append_assoc]
      exact authOffer_of_first hp hl h5
  obtain ⟨r, s', h, rfl, ha⟩ := runs_iff.mp key
  exact ⟨s', h, ha⟩

/-- **C09, partial, in clear.** In clear the reply is understood if it arrives in one batch (with any cuts inside the batch, also inside
lines), and for the plain client also if it arrives in several batches, provided the last batch has at least two lines and no later
batch begins with an AUTH line. Both provisos are needed (refuted below), as is the single batch for the opportunistic client. -/
theorem C09_clear_partial (env : Env) (s : St) (ls g : List Bytes) (gs : List (List Bytes)) (rs : List RecvRes) (n : Nat)
    (hk : s.client.kind = .smtp ∨ (s.client.bio = none ∧ gs = [])) (hlog : HasLog s)
    (hsend : env.send s.hist (.raw s.client.sock) b!"ehlo localhost\r\n" = .sent n) (hls : EhloReply ls) (hcut : (g :: gs).flatten = ls)
    (hgs : ∀ x ∈ g :: gs, x ≠ []) (harr : InTurn (ClearBatch s.client.timeout) ((g :: gs).map wire) rs) (hfuel : rs.length ≤ env.fuel)
    (hf : Feeds env (.raw s.client.sock) rs s.hist)
    (hlast : gs = [] ∨ ∃ a z, gs = a ++ [z] ∧ 2 ≤ z.length)
    (hauth : ∀ x ∈ gs, ∀ l, x.head? = some l → ¬ IsAuthLine l) :
    ∃ s', sendServerIdentification env s = (.ok 250, s') ∧ AuthOffer ls s'.client.authOptions := by
  obtain ⟨r, s', h, rfl, _, ha, _⟩ := runs_iff.mp (identify_clear (err := -20) (tc := -21) hk hlog hsend hls hcut hgs harr hfuel hlast hf)
  refine ⟨s', h, ?_⟩
  rw [ha]
  have hpl : ∀ l ∈ g ++ (gs.map bump).flatten, ∀ c ∈ l, c ≠ 0 ∧ c ≠ 13 := by
    intro l hl
    rcases List.mem_append.mp hl with hl | hl
    · intro c hc
      have := hls.plain l (by rw [← hcut]; simp [hl]) c hc
      exact ⟨this.1, this.2.2⟩
    · refine no_cr_bump gs ?_ l hl
      intro x hx m hm c hc
      have := hls.plain m (by rw [← hcut]; exact List.mem_flatten.mpr ⟨x, by simp [hx], hm⟩) c hc
      exact ⟨this.1, this.2.2⟩
  have hz : 0 ∉ wire (g ++ (gs.map bump).flatten) := wire_no_nul _ fun l hl h0 => (hpl l hl 0 h0).1 rfl
  have hlines : lines (wire (g ++ (gs.map bump).flatten)) = (g ++ (gs.map bump).flatten) ++ [[]] := by
    have := lines_wire (g ++ (gs.map bump).flatten) (fun l hl c hc => (hpl l hl c hc).2) []
    rw [List.append_nil] at this
    rw [this]; rfl
  have hg : g ≠ [] := hgs g (by simp)
  have := extract_offer hz (by
    rw [hlines]
    have := List.length_pos_iff.mpr hg
    simp only [List.length_append, List.length_cons, List.length_nil]
    omega)
  rw [hlines] at this
  have h2 : AuthOffer (ls ++ [[]]) (extractAuthOptions (some (wire (g ++ (gs.map bump).flatten)))) := by
    refine offer_of_same ?_ this
    refine sameOffer_append ?_ (sameOffer_refl _)
    rw [← hcut, List.flatten_cons]
    exact sameOffer_append (sameOffer_refl g) (sameOffer_bump gs hauth)
  exact offer_concat_nil h2

/-! ### What is refuted -/

/-- A client with an open connection in clear. -/
def talking (k : Kind) : St := { client := { Client.init k b!"mail.org" 25 with sock := 5, log := some .fresh, timeout := 3 }, hist := [] }

/-- A client with an open TLS connection. -/
def talkingTls (k : Kind) : St :=
  { client := { Client.init k b!"mail.org" 25 with sock := 5, bio := some { id := 7, fd := 5 }, log := some .fresh, timeout := 3 }, hist := [] }

/-- Code and mechanisms. -/
def outcome (r : Res Int × St) : Res Int × Option AuthOptions := (r.1, r.2.client.authOptions)

/-- **C09, refuted** in clear: when the last line arrives alone, after a pause, the end of the reply is never recognised and the result is the
timeout -21. The same reply in one batch is understood. -/
theorem C09_last_line_alone :
    outcome (sendServerIdentification (scripted (clear [b!"250-mail.org\r\n250-AUTH PLAIN\r\n", b!"250 SIZE\r\n"])) (talking .smtp)) =
      (.ok (-21), none) ∧
    outcome (sendServerIdentification (scripted (clear [b!"250-mail.org\r\n250-AUTH PLAIN\r\n250 SIZE\r\n"])) (talking .smtp)) =
      (.ok 250, some { plain := true }) := by
  refine ⟨?_, ?_⟩ <;> decide +kernel

/-- **C09, refuted** in clear: an AUTH line at the beginning of a later batch is not seen. -/
theorem C09_auth_line_lost :
    outcome (sendServerIdentification (scripted (clear [b!"250-mail.org\r\n", b!"250-AUTH PLAIN\r\n250 SIZE\r\n"])) (talking .smtp)) =
      (.ok 250, none) := by
  decide +kernel

/-- **C09, refuted** for the opportunistic client before TLS: a reply in two batches ends in the timeout, because the second part is read from
the TLS connection that does not exist yet. -/
theorem C09_opportunistic_second_batch :
    outcome (sendServerIdentification (scripted (clear [b!"250-mail.org\r\n", b!"250-STARTTLS\r\n250 SIZE\r\n"])) (talking .opportunistic)) =
      (.ok (-21), none) ∧
    outcome (sendServerIdentification (scripted (clear [b!"250-mail.org\r\n", b!"250-STARTTLS\r\n250 SIZE\r\n"])) (talking .smtp)) =
      (.ok 250, none) := by
  refine ⟨?_, ?_⟩ <;> decide +kernel

/-- **C09, refuted** over TLS: the last mechanism of an AUTH line at the end of the reply is not seen, and neither is anything when this
is the only line. -/
theorem C09_tls_last_mechanism_lost :
    outcome (getServerSecureIdentification (scripted [.data b!"250-mail.org\r\n250 AUTH PLAIN LOGIN\r\n"]) (talkingTls .forced)) =
      (.ok 250, some { plain := true }) ∧
    outcome (getServerSecureIdentification (scripted [.data b!"250 AUTH PLAIN LOGIN\r\n"]) (talkingTls .forced)) = (.ok 250, none) := by
  refine ⟨?_, ?_⟩ <;> decide +kernel

/-! ### Non-vacuity -/

theorem reads_append (a b : Hist) : reads (a ++ b) = reads a + reads b := by simp [reads]
theorem reads_quiet {e : Hist} (h : ∀ x ∈ e, isRead x = false) : reads e = 0 := by
  unfold reads
  rw [List.length_eq_zero_iff, List.filter_eq_nil_iff]
  intro x hx
  have := h x hx
  cases x <;> simp_all [isRead]

/-- The script of a scripted world is what the reads give. -/
theorem scripted_feeds {script : List RecvRes} (henv : env.recv = fun h _ => script.getD (reads h) .err) (ch : Chan) (rs : List RecvRes)
    (h : Hist) (hr : ∀ r ∈ rs, ∀ nb, normRecv nb r = r) (hs : (script.drop (reads h)).take rs.length = rs) : Feeds env ch rs h := by
  induction rs generalizing h with
  | nil => trivial
  | cons r rs ih =>
    intro e he
    have hre : reads (h ++ e) = reads h := by rw [reads_append, reads_quiet he]; rfl
    cases hd : script.drop (reads h) with
    | nil => rw [hd] at hs; simp at hs
    | cons x xs =>
      rw [hd] at hs
      simp only [List.length_cons, List.take_succ_cons, List.cons.injEq] at hs
      have hx : script.getD (reads h) .err = r := by
        rw [List.getD_eq_getElem?_getD, ← List.head?_drop, hd, ← hs.1]; rfl
      constructor
      · unfold answer
        rw [henv]
        dsimp only
        rw [hre, hx, hr r (by simp)]
      · refine ih (h ++ e ++ [.recv ch r]) (fun r' h' => hr r' (by simp [h'])) ?_
        have : reads (h ++ e ++ [.recv ch r]) = reads h + 1 := by rw [reads_append, hre]; rfl
        rw [this]
        have h1 : script.drop (reads h + 1) = xs := by rw [← List.tail_drop, hd]; rfl
        rw [h1]
        exact hs.2

/-- The lines of a reply. -/
def ehloLines : List Bytes := [b!"250-mail.org", b!"250-AUTH LOGIN PLAIN", b!"250-STARTTLS", b!"250 SIZE"]

theorem ehloLines_ok : EhloReply ehloLines :=
  ⟨⟨[b!"250-mail.org", b!"250-AUTH LOGIN PLAIN", b!"250-STARTTLS"], b!"250 SIZE", rfl, by
      intro l hl
      simp only [List.mem_cons, List.not_mem_nil, or_false] at hl
      rcases hl with rfl | rfl | rfl
      · exact ⟨b!"mail.org", rfl⟩
      · exact ⟨b!"AUTH LOGIN PLAIN", rfl⟩
      · exact ⟨b!"STARTTLS", rfl⟩, ⟨b!"SIZE", rfl⟩⟩, by decide⟩

/-- Three reads over TLS, with pauses. -/
def tlsReads : List RecvRes :=
  [.err, .data b!"250-mail.org\r\n", .err, .eof, .data b!"250-AUTH LOGIN PLAIN\r\n250-STARTTLS\r\n", .data b!"250 SIZE\r\n"]

example : ∃ s', getServerSecureIdentification (scripted tlsReads) (talkingTls .forced) = (.ok 250, s') ∧
    AuthOffer ehloLines s'.client.authOptions := by
  refine C09_tls_partial (scripted tlsReads) (talkingTls .forced) { id := 7, fd := 5 } ehloLines
    [[b!"250-mail.org"], [b!"250-AUTH LOGIN PLAIN", b!"250-STARTTLS"], [b!"250 SIZE"]] tlsReads 16 (by decide) rfl ⟨_, rfl, logOk_fresh⟩ rfl
    ehloLines_ok rfl (by decide) ?_ (by decide) (scripted_feeds rfl _ _ _ ?_ rfl) ?_
  · exact ⟨[.err, .data b!"250-mail.org\r\n"], _, rfl, ⟨[.err], ⟨by decide, by decide⟩, rfl⟩,
      [.err, .eof, .data b!"250-AUTH LOGIN PLAIN\r\n250-STARTTLS\r\n"], _, rfl, ⟨[.err, .eof], ⟨by decide, by decide⟩, rfl⟩,
      [.data b!"250 SIZE\r\n"], [], rfl, ⟨[], ⟨by decide, by decide⟩, rfl⟩, rfl⟩
  · decide
  · intro l hl _
    exact ⟨b!"250-AUTH LOGIN PLAIN", by decide, .inl ⟨b!" LOGIN PLAIN", rfl⟩⟩

example : (outcome (getServerSecureIdentification (scripted tlsReads) (talkingTls .forced))) = (.ok 250, some { plain := true, login := true }) := by
  decide +kernel

/-- Two batches in clear, cut inside lines. -/
def clearReads : List RecvRes :=
  [.err, .data b!"250-mail.org\r\n250-AU", .data b!"TH LOGIN PLAIN\r\n", .err, .eof, .data b!"250-STARTT", .data b!"LS\r\n250 SIZE\r", .data b!"\n", .err]

example : ∃ s', sendServerIdentification (scripted clearReads) (talking .smtp) = (.ok 250, s') ∧
    AuthOffer ehloLines s'.client.authOptions := by
  refine C09_clear_partial (scripted clearReads) (talking .smtp) ehloLines
    [b!"250-mail.org", b!"250-AUTH LOGIN PLAIN"] [[b!"250-STARTTLS", b!"250 SIZE"]] clearReads 16 (.inl rfl) ⟨_, rfl, logOk_fresh⟩ rfl
    ehloLines_ok rfl (by decide) ?_ (by decide) (scripted_feeds rfl _ _ _ ?_ rfl) (.inr ⟨[], _, rfl, by decide⟩) ?_
  · exact ⟨[.err, .data b!"250-mail.org\r\n250-AU", .data b!"TH LOGIN PLAIN\r\n", .err], _, rfl,
      ⟨[.err], [b!"250-mail.org\r\n250-AU", b!"TH LOGIN PLAIN\r\n"], ⟨by decide, by decide⟩, by decide, by decide, rfl, rfl⟩,
      [.eof, .data b!"250-STARTT", .data b!"LS\r\n250 SIZE\r", .data b!"\n", .err], [], rfl,
      ⟨[.eof], [b!"250-STARTT", b!"LS\r\n250 SIZE\r", b!"\n"], ⟨by decide, by decide⟩, by decide, by decide, rfl, rfl⟩, rfl⟩
  · decide
  · intro x hx l hl
    simp only [List.mem_singleton] at hx
    subst hx
    cases hl
    rintro (⟨r, e⟩ | ⟨r, e⟩) <;> simp at e

example : (outcome (sendServerIdentification (scripted clearReads) (talking .smtp))) = (.ok 250, some { plain := true, login := true }) := by
  decide +kernel

end Verif.Props
