import Verif.Proofs.Feeds
import Verif.Proofs.Lines
/-!
# The EHLO reply put together
-/
namespace Verif.Proofs
open Verif Verif.Model Verif.Spec

variable {env : Env}

/-- The later parts of the reply as the loop appends them; `f` says what is left of one part. -/
def joined (f : Bytes → Bytes) (ps : List Bytes) : Bytes := (ps.map fun p => 10 :: f p).flatten

/-- The connection of the client and its log. -/
structure Conn (k : Kind) (v : Int) (b : Option Bio) (T : Nat) (s : St) : Prop where
  kind : s.client.kind = k
  sock : s.client.sock = v
  bio : s.client.bio = b
  timeout : s.client.timeout = T
  log : HasLog s

theorem Conn.fetched {k v b T} {s s' : St} (h : Conn k v b T s) {ch t rest} (g : Fetched env ch t rest s s') : Conn k v b T s' :=
  ⟨g.kind.trans h.kind, g.sock.trans h.sock, g.bio.trans h.bio, g.timeout.trans h.timeout, g.log⟩

theorem Conn.idle {k v b T} {s s' : St} (h : Conn k v b T s) (g : Idle s s') : Conn k v b T s' :=
  ⟨g.kind.trans h.kind, g.sock.trans h.sock, g.bio.trans h.bio, g.timeout.trans h.timeout, g.log⟩

theorem ehloLoop_pieces {k : Kind} {v : Int} {b : Option Bio} {T : Nat} {ch : Chan} {f : Bytes → Bytes}
    {D : Bytes → List RecvRes → Prop} (tc : Int) (ps : List Bytes)
    (hstep : ∀ p a rest s, p ∈ ps → Conn k v b T s → D p a → a.length ≤ env.fuel → Feeds env ch (a ++ rest) s.hist →
      Runs env getServerReply (fun c s' => c = 250 ∧ Fetched env ch (f p) rest s s') s)
    (rs : List RecvRes) (hD : InTurn D ps rs) (hfuel : rs.length ≤ env.fuel) (n : Nat) (hn : ps.length < n) (opts : Bytes) (s : St)
    (hs : Conn k v b T s) (hf : Feeds env ch rs s.hist)
    (hend : ∀ x y, ps = x ++ y → (containsAllOptions (opts ++ joined f x) = true ↔ y = [])) :
    Runs env (ehloLoop tc n opts) (fun r s' => r = .inr (opts ++ joined f ps) ∧ Conn k v b T s' ∧ (ps = [] → s' = s)) s := by
  induction ps generalizing rs n opts s with
  | nil =>
    obtain ⟨n, rfl⟩ : ∃ n', n = n' + 1 := ⟨n - 1, by simp at hn; omega⟩
    unfold ehloLoop
    have := (hend [] [] rfl).mpr rfl
    simp only [joined, List.map_nil, List.flatten_nil, List.append_nil] at this
    rw [if_pos this]
    exact ⟨by simp [joined], hs, fun _ => rfl⟩
  | cons p ps ih =>
    obtain ⟨n, rfl⟩ : ∃ n', n = n' + 1 := ⟨n - 1, by simp at hn; omega⟩
    obtain ⟨a, c, rfl, hDp, hDps⟩ := hD
    unfold ehloLoop
    have := (hend [] (p :: ps) rfl)
    simp only [joined, List.map_nil, List.flatten_nil, List.append_nil, reduceCtorEq, iff_false] at this
    rw [if_neg this]
    apply runs_bind
    simp only [List.length_append] at hfuel
    refine runs_mono (hstep p a c s (by simp) hs hDp (by omega) hf) ?_
    rintro _ s1 ⟨rfl, g⟩
    rw [if_neg (by decide), if_neg (by simp)]
    unfold lastResponseText
    apply runs_bind
    apply runs_get
    rw [g.resp]
    show Runs env (ehloLoop tc n (opts ++ b!"\n" ++ f p)) _ s1
    refine runs_mono (ih (fun p' a' rest s' hp => hstep p' a' rest s' (by simp [hp])) c hDps (by omega) n (by simp at hn; omega)
      (opts ++ b!"\n" ++ f p) s1 (hs.fetched g) g.feeds ?_) ?_
    · intro x y e
      have := hend (p :: x) y (by rw [e]; rfl)
      rw [← this]
      simp [joined]
    · rintro r s' ⟨rfl, h2, h3⟩
      exact ⟨by simp [joined], h2, by simp⟩

/-- The whole identification: EHLO, its reply in pieces, and what is made of it. -/
theorem identify_pieces {k : Kind} {v : Int} {b : Option Bio} {T : Nat} {ch : Chan} {f : Bytes → Bytes}
    {D : Bytes → List RecvRes → Prop} (err tc : Int) (p : Bytes) (ps : List Bytes)
    (hstep : ∀ p a rest s, p ∈ ps → Conn k v b T s → D p a → a.length ≤ env.fuel → Feeds env ch (a ++ rest) s.hist →
      Runs env getServerReply (fun c s' => c = 250 ∧ Fetched env ch (f p) rest s s') s)
    (rs : List RecvRes) (hD : InTurn D (p :: ps) rs) (hpos : ps.length < rs.length) (hfuel : rs.length ≤ env.fuel) (s : St)
    (hs : Conn k v b T s) (hf : Feeds env ch rs s.hist) {s0 : Hist}
    (hfirst : ∀ a rest s, Conn k v b T s → D p a → a.length ≤ env.fuel → Feeds env ch (a ++ rest) s.hist → s.hist = s0 →
      Runs env (sendFb ehloCmd err tc) (fun c s' => c = 250 ∧ Fetched env ch (f p) rest s s') s) (hs0 : s.hist = s0)
    (hend : ∀ x y, ps = x ++ y → (containsAllOptions (f p ++ joined f x) = true ↔ y = [])) :
    Runs env (identify err tc) (fun r s' => r = 250 ∧ Conn k v b T s' ∧
      s'.client.authOptions = extractAuthOptions (some (f p ++ joined f ps)) ∧ (ps = [] → s'.client.lastResponse = some (f p))) s := by
  obtain ⟨a, c, rfl, hDp, hDps⟩ := hD
  simp only [List.length_append] at hfuel
  unfold identify
  apply runs_bind
  obtain ⟨l, hl, hlog⟩ := hs.log
  refine wp_addLog hs.log fun l op hl => ?_
  have hs' : Conn k v b T { s with client := { s.client with log := some l }, mem := s.mem ++ [op] } := ⟨hs.kind, hs.sock, hs.bio, hs.timeout, l, rfl, hl⟩
  apply runs_bind
  refine runs_mono (hfirst a c { s with client := { s.client with log := some l }, mem := s.mem ++ [op] } hs' hDp (by omega) hf hs0) ?_
  rintro _ s1 ⟨rfl, g⟩
  rw [if_neg (by simp)]
  unfold lastResponseText
  apply runs_bind
  apply runs_get
  rw [g.resp]
  show Runs env _ _ s1
  apply runs_bind
  show Runs env _ _ s1
  apply runs_bind
  refine runs_mono (ehloLoop_pieces tc ps hstep c hDps (by omega) env.fuel (by simp at hpos; omega) (f p) s1
    (hs'.fetched g) g.feeds hend) ?_
  rintro _ s2 ⟨rfl, h2, h3⟩
  refine ⟨rfl, ⟨h2.kind, h2.sock, h2.bio, h2.timeout, h2.log⟩, rfl, ?_⟩
  intro e
  rw [h3 e]
  exact g.resp

theorem inTurn_length {D : Bytes → List RecvRes → Prop} (hD : ∀ p a, D p a → a ≠ []) :
    ∀ {ps : List Bytes} {rs : List RecvRes}, InTurn D ps rs → ps.length ≤ rs.length
  | [], _, _ => by simp
  | p :: ps, rs, ⟨a, b, e, h1, h2⟩ => by
    have := inTurn_length hD h2
    have := List.length_pos_iff.mpr (hD p a h1)
    rw [e]
    simp only [List.length_cons, List.length_append]
    omega

/-! ### The texts -/

theorem wire_cons (l : Bytes) (ls : List Bytes) : wire (l :: ls) = l ++ 13 :: 10 :: wire ls := by simp [wire]
theorem wire_append (a b : List Bytes) : wire (a ++ b) = wire a ++ wire b := by simp [wire]

theorem lines_wire (ls : List Bytes) (h : ∀ l ∈ ls, ∀ c ∈ l, c ≠ 13) (t : Bytes) : lines (wire ls ++ t) = ls ++ lines t := by
  induction ls with
  | nil => rfl
  | cons l ls ih =>
    rw [wire_cons, List.append_assoc]
    show lines (l ++ 13 :: 10 :: (wire ls ++ t)) = _
    rw [lines_append_crlf l _ (h l (by simp)), ih (fun l' h' => h l' (by simp [h']))]
    rfl

theorem wire_no_nul (ls : List Bytes) (h : ∀ l ∈ ls, 0 ∉ l) : 0 ∉ wire ls := by
  induction ls with
  | nil => simp [wire]
  | cons l ls ih =>
    rw [wire_cons]
    simp only [List.mem_append, List.mem_cons, not_or]
    exact ⟨h l (by simp), by decide, by decide, ih (fun l' h' => h l' (by simp [h']))⟩

theorem prefix_append_cr {p l : Bytes} (hp : 13 ∉ p) : p <+: l ++ [13] ↔ p <+: l := by
  constructor
  · rintro ⟨r, hr⟩
    rcases List.eq_nil_or_concat r with rfl | ⟨r', x, rfl⟩
    · simp only [List.append_nil] at hr
      rw [hr] at hp
      exact absurd (by simp) hp
    · have : (p ++ r') ++ [x] = l ++ [13] := by rw [← hr]; simp
      exact ⟨r', (List.append_inj' this rfl).1⟩
  · rintro ⟨r, rfl⟩
    exact ⟨r ++ [13], by simp⟩

end Verif.Proofs
