import Verif.Props.Login
import Verif.Spec.Dialogue
/-!
# Following a script
-/
namespace Verif.Proofs
open Verif Verif.Model Verif.Spec Verif.Props

variable {α β : Type} {env : Env}

/-- What can be said. -/
abbrev Utterance := SendKind × Bytes

/-- Nothing is said. -/
def Mute (s s' : St) : Prop := NewEvents (fun e => utter e = none) s s'

theorem Mute.refl (s : St) : Mute s s := .same rfl
theorem Mute.trans {a b c : St} (h : Mute a b) (h' : Mute b c) : Mute a c := NewEvents.trans h h'

instance : Cleaning Mute where
  refl := .refl
  trans := .trans
  log := fun _ _ _ _ _ _ _ => .same rfl
  errno := fun _ _ => .same rfl
  resp := fun _ _ => .same rfl
  auth := fun _ _ => .same rfl
  fcntlGet := fun _ _ _ => .one rfl
  fcntlSet := fun _ _ _ _ => .one rfl
  select := fun _ _ _ => .one rfl
  sockopt := fun _ _ _ => .one rfl
  resolve := fun _ _ _ => .one rfl
  connect := fun _ _ _ _ => .one rfl
  sleep := fun _ => .one rfl
  recv := fun _ _ _ => .one rfl
  disconnected := fun _ => .same rfl
  ctx := fun _ _ => .same rfl
  noBio := fun _ => .same rfl
  noSock := fun _ => .same rfl
  close := fun _ _ => .one rfl
  bioFree := fun _ _ => .one rfl
  quit := fun _ _ _ => .one rfl

instance : Filing Mute where
  readFile := fun _ _ _ => .one rfl

instance : Opening Mute where
  freshLog := fun _ => .same rfl
  keep := fun _ => .same rfl
  bio := fun _ _ => .same rfl
  sock := fun _ _ => .same rfl
  socket := fun _ _ => .one rfl
  tls := fun _ _ _ => .one rfl

/-- The credential and the class of the client stay. -/
def SameUser (s s' : St) : Prop := s'.client.credential = s.client.credential ∧ s'.client.kind = s.client.kind

instance : Cleaning SameUser where
  refl := fun _ => ⟨rfl, rfl⟩
  trans := fun h h' => ⟨h'.1.trans h.1, h'.2.trans h.2⟩
  log := fun _ _ _ _ _ _ _ => ⟨rfl, rfl⟩
  errno := fun _ _ => ⟨rfl, rfl⟩
  resp := fun _ _ => ⟨rfl, rfl⟩
  auth := fun _ _ => ⟨rfl, rfl⟩
  fcntlGet := fun _ _ _ => ⟨rfl, rfl⟩
  fcntlSet := fun _ _ _ _ => ⟨rfl, rfl⟩
  select := fun _ _ _ => ⟨rfl, rfl⟩
  sockopt := fun _ _ _ => ⟨rfl, rfl⟩
  resolve := fun _ _ _ => ⟨rfl, rfl⟩
  connect := fun _ _ _ _ => ⟨rfl, rfl⟩
  sleep := fun _ => ⟨rfl, rfl⟩
  recv := fun _ _ _ => ⟨rfl, rfl⟩
  disconnected := fun _ => ⟨rfl, rfl⟩
  ctx := fun _ _ => ⟨rfl, rfl⟩
  noBio := fun _ => ⟨rfl, rfl⟩
  noSock := fun _ => ⟨rfl, rfl⟩
  close := fun _ _ => ⟨rfl, rfl⟩
  bioFree := fun _ _ => ⟨rfl, rfl⟩
  quit := fun _ _ _ => ⟨rfl, rfl⟩

instance : Filing SameUser where
  readFile := fun _ _ _ => ⟨rfl, rfl⟩

instance : Opening SameUser where
  freshLog := fun _ => ⟨rfl, rfl⟩
  keep := fun _ => ⟨rfl, rfl⟩
  bio := fun _ _ => ⟨rfl, rfl⟩
  sock := fun _ _ => ⟨rfl, rfl⟩
  socket := fun _ _ => ⟨rfl, rfl⟩
  tls := fun _ _ _ => ⟨rfl, rfl⟩

/-! ### Scripts -/

/-- Sets of scripts, which may depend on what happened. -/
abbrev Scripts := Hist → List Utterance → Prop

/-- One script after the other. -/
def Scripts.then (S T : Scripts) : Scripts := fun h l => ∃ h1 h2 l1 l2, h = h1 ++ h2 ∧ l = l1 ++ l2 ∧ S h1 l1 ∧ T h2 l2

/-- Exactly this script. -/
def Scripts.one (l : List Utterance) : Scripts := fun _ l' => l' = l

/-- The scripts do not depend on the silent parts of what happened, and there are some. -/
structure Scripts.Good (S : Scripts) : Prop where
  pre : ∀ e h l, uttered e = [] → S h l → S (e ++ h) l
  post : ∀ e h l, uttered e = [] → S h l → S (h ++ e) l
  some : ∃ l, S [] l

theorem Scripts.Good.of {Q : List Utterance → Prop} (h : ∃ l, Q l) : Scripts.Good fun _ => Q := ⟨fun _ _ _ _ h => h, fun _ _ _ _ h => h, h⟩
theorem Scripts.Good.one {l : List Utterance} : (Scripts.one l).Good := ⟨fun _ _ _ _ h => h, fun _ _ _ _ h => h, ⟨l, rfl⟩⟩
theorem Scripts.Good.then {S T : Scripts} (h : S.Good) (h' : T.Good) : (S.then T).Good where
  pre := by
    rintro e _ _ he ⟨h1, h2, l1, l2, rfl, rfl, s1, s2⟩
    exact ⟨e ++ h1, h2, l1, l2, by simp, rfl, h.pre _ _ _ he s1, s2⟩
  post := by
    rintro e _ _ he ⟨h1, h2, l1, l2, rfl, rfl, s1, s2⟩
    exact ⟨h1, h2 ++ e, l1, l2, by simp, rfl, s1, h'.post _ _ _ he s2⟩
  some := by
    obtain ⟨l1, s1⟩ := h.some
    obtain ⟨l2, s2⟩ := h'.some
    exact ⟨l1 ++ l2, [], [], l1, l2, rfl, rfl, s1, s2⟩

/-- A script was followed: what was said is a part of it in the same order; without zero replies it is an initial part, under the condition all of it. -/
def Out (S : Scripts) (full : Prop) (s s' : St) : Prop :=
  ∃ evs l, s'.hist = s.hist ++ evs ∧ S evs l ∧ (uttered evs).Sublist l ∧ (¬ ReplyIn evs 0 → uttered evs <+: l ∧ (full → uttered evs = l))

theorem uttered_append (h h' : Hist) : uttered (h ++ h') = uttered h ++ uttered h' := by simp [uttered]

theorem replyIn_left {h h' : Hist} {c : Int} (x : ReplyIn h c) : ReplyIn (h ++ h') c := by
  obtain ⟨a, b, d, rfl, h1, h2⟩ := x
  exact ⟨a, b, d ++ h', by simp, h1, h2⟩

theorem replyIn_right {h h' : Hist} {c : Int} (x : ReplyIn h' c) : ReplyIn (h ++ h') c := by
  obtain ⟨a, b, d, rfl, h1, h2⟩ := x
  exact ⟨h ++ a, b, d, by simp, h1, h2⟩

theorem Out.ext {S : Scripts} {P : Prop} {s s' : St} (h : Out S P s s') : Ext s s' := by
  obtain ⟨evs, _, h, _⟩ := h
  exact ⟨evs, h⟩

theorem Mute.uttered {s s' : St} (h : Mute s s') : ∃ evs, s'.hist = s.hist ++ evs ∧ uttered evs = [] := by
  obtain ⟨evs, h1, h2⟩ := h
  exact ⟨evs, h1, List.filterMap_eq_nil_iff.mpr h2⟩

theorem Out.mute {S : Scripts} {P : Prop} {s s' : St} (h : Mute s s') (hS : ∀ evs, Spec.uttered evs = [] → S evs []) : Out S P s s' := by
  obtain ⟨evs, h1, h2⟩ := h.uttered
  exact ⟨evs, [], h1, hS evs h2, by rw [h2]; exact List.Sublist.slnil, fun _ => by rw [h2]; exact ⟨List.prefix_rfl, fun _ => rfl⟩⟩

/-- Nothing was said of a script yet. -/
theorem Out.nothing {S : Scripts} {P : Prop} {s s' : St} (h : Mute s s') (hp : ¬ P) (hS : S.Good) : Out S P s s' := by
  obtain ⟨evs, h1, h2⟩ := h.uttered
  obtain ⟨l, hl⟩ := hS.some
  exact ⟨evs, l, h1, by have := hS.post evs _ _ h2 hl; simpa using this, by rw [h2]; exact List.nil_sublist _, fun _ => by rw [h2]; exact ⟨List.nil_prefix, fun h => absurd h hp⟩⟩

theorem Out.mono {S : Scripts} {P Q : Prop} {s s' : St} (h : Out S P s s') (hq : Q → P) : Out S Q s s' := by
  obtain ⟨evs, l, h1, h2, h3, h4⟩ := h
  exact ⟨evs, l, h1, h2, h3, fun hz => ⟨(h4 hz).1, fun q => (h4 hz).2 (hq q)⟩⟩

theorem Out.weaken {S T : Scripts} {P : Prop} {s s' : St} (h : Out S P s s') (hq : ∀ h l, S h l → T h l) : Out T P s s' := by
  obtain ⟨evs, l, h1, h2, h3, h4⟩ := h
  exact ⟨evs, l, h1, hq _ _ h2, h3, h4⟩

theorem Out.zero {S : Scripts} {P Q : Prop} {s s' : St} (h : Out S P s s') (hz : ZeroRead s s') : Out S Q s s' := by
  obtain ⟨evs, l, h1, h2, h3, h4⟩ := h
  obtain ⟨evs', h1', hz⟩ := hz
  obtain rfl : evs = evs' := List.append_cancel_left (h1.symm.trans h1')
  exact ⟨evs, l, h1, h2, h3, fun h => absurd hz h⟩

theorem Out.then {S T : Scripts} {P : Prop} {a b c : St} (h : Out S True a b) (h' : Out T P b c) : Out (S.then T) P a c := by
  obtain ⟨e1, l1, h1, s1, b1, p1⟩ := h
  obtain ⟨e2, l2, h2, s2, b2, p2⟩ := h'
  refine ⟨e1 ++ e2, l1 ++ l2, by rw [h2, h1, List.append_assoc], ⟨_, _, _, _, rfl, rfl, s1, s2⟩, ?_, fun hz => ?_⟩
  · rw [uttered_append]
    exact b1.append b2
  · obtain ⟨_, f1⟩ := p1 fun h => hz (replyIn_left h)
    obtain ⟨q2, f2⟩ := p2 fun h => hz (replyIn_right h)
    rw [uttered_append, f1 trivial]
    exact ⟨(List.prefix_append_right_inj _).mpr q2, fun hp => by rw [f2 hp]⟩

theorem Out.stop {S T : Scripts} {P Q : Prop} {a b : St} (h : Out S P a b) (hT : T.Good) (hq : ¬ Q) : Out (S.then T) Q a b := by
  obtain ⟨e1, l1, h1, s1, b1, p1⟩ := h
  obtain ⟨l, hl⟩ := hT.some
  refine ⟨e1, l1 ++ l, h1, ⟨e1, [], l1, l, by simp, rfl, s1, hl⟩, b1.trans (List.sublist_append_left ..), fun hz => ⟨?_, fun h => absurd h hq⟩⟩
  exact (p1 hz).1.trans (List.prefix_append ..)

theorem Out.after {S : Scripts} {P : Prop} {a b c : St} (h : Mute a b) (h' : Out S P b c) (hS : S.Good) : Out S P a c := by
  obtain ⟨e1, h1, u1⟩ := h.uttered
  obtain ⟨e2, l2, h2, s2, b2, p2⟩ := h'
  refine ⟨e1 ++ e2, l2, by rw [h2, h1, List.append_assoc], hS.pre _ _ _ u1 s2, ?_, fun hz => ?_⟩ <;> rw [uttered_append, u1, List.nil_append]
  · exact b2
  · exact p2 fun h => hz (replyIn_right h)

theorem Out.before {S : Scripts} {P : Prop} {a b c : St} (h : Out S P a b) (h' : Mute b c) (hS : S.Good) : Out S P a c := by
  obtain ⟨e1, h1, u1⟩ := h'.uttered
  obtain ⟨e2, l2, h2, s2, b2, p2⟩ := h
  refine ⟨e2 ++ e1, l2, by rw [h1, h2, List.append_assoc], hS.post _ _ _ u1 s2, ?_, fun hz => ?_⟩ <;> rw [uttered_append, u1, List.append_nil]
  · exact b2
  · exact p2 fun h => hz (replyIn_left h)

/-! ### Programs that follow scripts -/

/-- Started here, the program follows one of the scripts; results with the condition mean that all of it was said. -/
def Recites (env : Env) (p : M α) (S : Scripts) (C : α → Prop) (s : St) : Prop :=
  wp env p (fun a s' => Out S (C a) s s') (fun _ s' => Out S False s s') s

theorem Recites.mono {p : M α} {S T : Scripts} {C D : α → Prop} {s : St} (h : Recites env p S C s) (hS : ∀ h l, S h l → T h l)
    (hC : ∀ a, D a → C a) : Recites env p T D s :=
  wp_mono h (fun a _ h => (h.mono (hC a)).weaken hS) (fun _ _ h => h.weaken hS)

/-- A step that says nothing. -/
theorem Recites.mute {p : M α} {f : α → M β} {S : Scripts} {C : β → Prop} {s : St} (h : Steps env Mute p) (hK : Steps env SameUser p)
    (hS : S.Good)
    (hf : ∀ a s1, SameUser s s1 → Recites env (f a) S C s1) : Recites env (p >>= f) S C s := by
  unfold Recites
  rw [wp_bind]
  refine wp_mono (wp_and (h.run s) (hK.run s)) (fun a s1 ⟨h1, k1⟩ => ?_) (fun _ s1 h1 => ?_)
  · exact wp_mono (hf a s1 k1) (fun _ _ h => h.after h1 hS) (fun _ _ h => h.after h1 hS)
  · exact Out.nothing h1.1 id hS

/-- `code = p; if (code != c) return code; q`. -/
theorem Recites.seq {p q : M Int} {c : Int} {S T : Scripts} {s : St} (h1 : Recites env p S (· = c) s) (hz : c = 0 ∨ ZeroCoded env p)
    (hK : Steps env SameUser p) (hT : T.Good) (h2 : ∀ s1, SameUser s s1 → Recites env q T (· = 0) s1) :
    Recites env (p >>= fun code => if code ≠ c then pure code else q) (S.then T) (· = 0) s := by
  unfold Recites
  rw [wp_bind]
  have hz' : wp env p (fun code s' => code = 0 → c = 0 ∨ ZeroRead s s') (fun _ _ => True) s := by
    rcases hz with hz | hz
    · exact wp_mono h1 (fun _ _ _ _ => .inl hz) (fun _ _ _ => trivial)
    · exact wp_mono (hz s) (fun _ _ h h0 => .inr (h.1 h0)) (fun _ _ _ => trivial)
  refine wp_mono (wp_and (wp_and h1 hz') (hK.run s)) (fun code s1 ⟨⟨o1, z1⟩, k1⟩ => ?_) (fun _ s1 h => h.1.1.stop hT id)
  rw [wp_ite]
  refine ⟨fun hc => ?_, fun hc => ?_⟩
  · show Out _ _ _ _
    by_cases h0 : code = 0
    · rcases z1 h0 with z | z
      · exact absurd (h0.trans z.symm) hc
      · exact (o1.stop hT id).zero z
    · exact o1.stop hT h0
  · have hc := Decidable.not_not.mp hc
    refine wp_mono (h2 s1 k1) (fun _ _ o2 => (o1.mono fun _ => hc).then o2) (fun _ _ o2 => (o1.mono fun _ => hc).then o2)

theorem Recites.pure {a : α} {S : Scripts} {C : α → Prop} {s : St} (hS : S [] []) : Recites env (Pure.pure a) S C s :=
  ⟨[], [], by simp, hS, List.Sublist.slnil, fun _ => ⟨List.prefix_rfl, fun _ => rfl⟩⟩

/-- The same with another value returned early and another meaning of the result. -/
theorem Recites.seqG {p q : M Int} {c : Int} {ret : Int → Int} {S T : Scripts} {D : Int → Prop} {s : St} (h1 : Recites env p S (· = c) s)
    (hr : post env p (fun code s' => D (ret code) → ZeroRead s s') s) (hK : Steps env SameUser p) (hT : T.Good)
    (h2 : ∀ s1, SameUser s s1 → Recites env q T D s1) :
    Recites env (p >>= fun code => if code ≠ c then Pure.pure (ret code) else q) (S.then T) D s := by
  unfold Recites
  rw [wp_bind]
  refine wp_mono (wp_and (wp_and h1 hr) (hK.run s)) (fun code s1 ⟨⟨o1, z1⟩, k1⟩ => ?_) (fun _ s1 h => h.1.1.stop hT id)
  rw [wp_ite]
  refine ⟨fun hc => ?_, fun hc => ?_⟩
  · show Out _ _ _ _
    by_cases h0 : D (ret code)
    · exact (o1.stop hT id).zero (z1 h0)
    · exact o1.stop hT h0
  · have hc := Decidable.not_not.mp hc
    refine wp_mono (h2 s1 k1) (fun _ _ o2 => (o1.mono fun _ => hc).then o2) (fun _ _ o2 => (o1.mono fun _ => hc).then o2)

/-- A program that says nothing. -/
theorem Recites.silent {p : M α} {C : α → Prop} {s : St} (h : Steps env Mute p) : Recites env p (.one []) C s :=
  wp_mono (h.run s) (fun _ _ h => Out.mute h fun _ _ => rfl) (fun _ _ h => Out.mute h fun _ _ => rfl)

theorem Out.first {k : SendKind} (hk : k ≠ .quit) {ch : Chan} {d : Bytes} {r : SendRes} {P : Prop} {s s' : St}
    (h : Mute (St.snoc s (.send k ch d r)) s') : Out (.one [(k, d)]) P s s' := by
  obtain ⟨evs, h1, h2⟩ := h.uttered
  have hu : uttered (.send k ch d r :: evs) = [(k, d)] := by
    unfold Spec.uttered at h2 ⊢
    rw [List.filterMap_cons, h2]
    cases k <;> first | rfl | exact absurd rfl hk
  refine ⟨.send k ch d r :: evs, [(k, d)], by rw [h1]; simp [St.snoc], rfl, ?_, fun _ => ?_⟩ <;> rw [hu]
  · exact List.Sublist.refl _
  · exact ⟨List.prefix_rfl, fun _ => rfl⟩

/-- A program that first says one thing. -/
theorem Recites.first {p : M α} {d : Bytes} {C : α → Prop} {s : St} (h : SendsFirst env Mute .cmd d p) : Recites env p (.one [(.cmd, d)]) C s := by
  obtain ⟨ch, r, h⟩ := h s
  exact wp_mono h (fun _ s' h => .first (by decide) h) (fun _ s' h => .first (by decide) h)

theorem sendFb_first {R : St → St → Prop} [Cleaning R] (d e t) : SendsFirst env R .cmd (cstr d) (sendFb d e t) := by
  intro s
  cases hk : (s.client.kind == .smtp || s.client.bio.isNone)
  · simp only [Bool.or_eq_false_iff, Option.isNone_eq_false_iff] at hk
    obtain ⟨b, hb⟩ := Option.isSome_iff_exists.mp hk.2
    have : SendsFirst env R .cmd (cstr d) (do
        match ← sysSend .cmd (.tls b.id b.fd) (cstr d) with
        | .fail _ => do
          setErrNo (← M.ask' (·.tlsErr))
          cleanup
          pure e
        | _ => pure (0 : Int) : M Int) := by
      refine .sysSend fun r => ?_
      steps [setErrNo_steps, cleanup_steps]
    obtain ⟨ch, r, h⟩ := this s
    refine ⟨ch, r, ?_⟩
    unfold sendFb
    simp only [wp_bind, wp_gets, hk.1, hb, Option.isNone_some, Bool.or_self, wp_ite, sendTlsFb]
    refine ⟨fun h => by simp at h, fun _ => ?_⟩
    unfold sendBioWith
    rw [wp_bind, wp_gets, hb]
    dsimp only
    refine wp_mono h (fun a s' h' => ⟨fun _ => h', fun _ => ?_⟩) (fun _ _ h' => h')
    refine wp_mono (getTlsReply_steps.after h') (fun a s'' h'' => ⟨fun _ => h'', fun _ => ?_⟩) (fun _ _ h' => h')
    exact cleanup_steps.after h''
  · obtain ⟨ch, r, h⟩ := sendRawFb_first (env := env) (R := R) d e t s
    refine ⟨ch, r, ?_⟩
    simp only [wp_bind, wp_gets, wp_ite, sendFb, hk]
    exact ⟨fun _ => h, fun h => by simp at h⟩

/-! ### The opening -/

theorem identify_recites (e t : Int) (s : St) {C : Int → Prop} : Recites env (identify e t) (.one [(.cmd, ehloCmd)]) C s := by
  unfold identify
  refine .mute (addLog_steps _ _) (addLog_steps _ _) .one fun _ s1 _ => .first (.bind (sendFb_first ehloCmd e t) fun code => ?_)
  steps [lastResponseText_steps, ehloLoop_steps, setAuthOptions_steps]

theorem same_cmd {d : Bytes} {e t : Int} : Steps env SameUser (sendPtrFb d e t) := sendPtrFb_steps (fun _ _ _ => ⟨rfl, rfl⟩) e t

/-- Texts as commands. -/
abbrev asCmds (l : List Bytes) : List Utterance := l.map (.cmd, ·)

theorem authenticateClient_recites {c : Credential} (hm : Modest c) (s : St) (hc : s.client.credential = some c) :
    Recites env authenticateClient (fun _ l => ∃ a, AuthScript (some c) a ∧ l = asCmds a) (· = 235) s := by
  obtain ⟨n1, n2, n3⟩ := C42_commands_without_nul c c.username
  have n4 := (C42_commands_without_nul c c.password).2.1
  have l1 := hm.length
  have good : Scripts.Good fun _ l => ∃ a, AuthScript (some c) a ∧ l = asCmds a :=
    .of ⟨_, _, ⟨_, .plain ((C42_plain_partial c hm.user.1 hm.password).1 (by omega)), rfl⟩, rfl⟩
  have plain : Recites env (authPlainM c) (fun _ l => ∃ a, AuthScript (some c) a ∧ l = asCmds a) (· = 235) s := by
    unfold authPlainM
    refine .mute (addLog_steps _ _) (addLog_steps _ _) good fun _ s1 _ => ?_
    refine (Recites.first (sendPtrFb_first _ _ _)).mono ?_ (fun _ h => h)
    rintro _ _ rfl
    rw [n1]
    exact ⟨_, ⟨_, .plain ((C42_plain_partial c hm.user.1 hm.password).1 (by omega)), rfl⟩, rfl⟩
  have xoauth : Recites env (authXOAuth2M c) (fun _ l => ∃ a, AuthScript (some c) a ∧ l = asCmds a) (· = 235) s := by
    unfold authXOAuth2M
    refine .mute (addLog_steps _ _) (addLog_steps _ _) good fun _ s1 _ => ?_
    refine (Recites.first (sendPtrFb_first _ _ _)).mono ?_ (fun _ h => h)
    rintro _ _ rfl
    rw [n3]
    exact ⟨_, ⟨_, .xoauth2 (C42_xoauth2_partial c hm.user.2 hm.length), rfl⟩, rfl⟩
  have login : Recites env (authLoginM c) (fun _ l => ∃ a, AuthScript (some c) a ∧ l = asCmds a) (· = 235) s := by
    unfold authLoginM
    refine .mute (addLog_steps _ _) (addLog_steps _ _) good fun _ s1 _ => ?_
    refine Recites.mono (D := (· = 235)) (Recites.seqG (ret := fun _ => -81) (D := (· = 235)) (Recites.first (sendPtrFb_first _ _ _)) ?_ same_cmd (.then .one .one) fun s2 _ =>
      Recites.seqG (ret := fun _ => -81) (D := (· = 235)) (Recites.first (sendPtrFb_first _ _ _)) ?_ same_cmd .one fun s3 _ => Recites.first (sendPtrFb_first _ _ _)) ?_ (fun _ h => h)
    · exact wp_mono (same_cmd.run s1) (fun _ _ _ h => absurd h (by decide)) (fun _ _ _ => trivial)
    · exact wp_mono (same_cmd.run s2) (fun _ _ _ h => absurd h (by decide)) (fun _ _ _ => trivial)
    · rintro _ _ ⟨_, _, _, _, rfl, rfl, rfl, _, _, _, _, rfl, rfl, rfl, rfl⟩
      rw [n2, n4]
      have e1 : cstr b!"AUTH LOGIN\r\n" = b!"AUTH LOGIN\r\n" := by decide
      rw [e1]
      exact ⟨_, ⟨_, .login ((C42_login_partial c.username).1 (by omega)) ((C42_login_partial c.password).1 (by omega)), rfl⟩, rfl⟩
  unfold authenticateClient Recites
  rw [wp_bind, wp_gets, hc]
  dsimp only
  rw [wp_bind, wp_gets]
  cases s.client.authOptions with
  | none => exact Out.nothing (.refl _) id good
  | some o =>
    dsimp only
    simp only [wp_ite]
    exact ⟨fun _ => plain, fun _ => ⟨fun _ => login, fun _ => ⟨fun _ => xoauth, fun _ => Out.nothing (.refl _) (by decide) good⟩⟩⟩

/-- Nothing the client was told is too long to be sent. -/
abbrev ModestClient (c : Client) : Prop := ∀ cr, c.credential = some cr → Modest cr

/-- The scripts of an authentication. -/
abbrev authScripts (o : Option Credential) : Scripts := fun _ l => ∃ a, AuthScript o a ∧ l = asCmds a

theorem authScripts_good {c : Client} (h : ModestClient c) : (authScripts c.credential).Good := by
  refine .of ?_
  cases hc : c.credential with
  | none => exact ⟨_, [], rfl, rfl⟩
  | some cr =>
    have hm := h cr hc
    have := hm.length
    exact ⟨_, _, ⟨_, .plain ((C42_plain_partial cr hm.user.1 hm.password).1 (by omega)), rfl⟩, rfl⟩

theorem authenticateIfNeeded_recites (s : St) (hm : ModestClient s.client) :
    Recites env authenticateIfNeeded (authScripts s.client.credential) (· = 0) s := by
  unfold authenticateIfNeeded Recites
  rw [wp_bind, wp_gets]
  cases hc : s.client.credential with
  | none =>
    simp only [Option.isSome_none, Bool.false_eq_true, if_false]
    exact Out.mute (.refl _) fun _ _ => ⟨[], rfl, rfl⟩
  | some c =>
    simp only [Option.isSome_some, if_true]
    have h1 := authenticateClient_recites (env := env) (hm c hc) s hc
    have h2 := Recites.seqG (ret := id) (D := (· = 0)) (q := Pure.pure 0) h1
      (post_mono (authenticateClient_login (hm c hc) s hc) fun _ _ h => h.2)
      (by unfold authenticateClient authPlainM authLoginM authXOAuth2M; steps [addLog_steps, same_cmd]) (T := .one []) .one
      (fun s1 _ => Recites.silent (.pure _))
    refine Recites.mono h2 ?_ (fun _ h => h)
    rintro _ _ ⟨_, _, _, _, rfl, rfl, h, rfl⟩
    rw [List.append_nil]
    exact h

/-- EHLO and, if asked for, authentication. -/
theorem identify_auth_recites (e t : Int) (he : e ≠ 0) (ht : t ≠ 0) (s : St) (hm : ModestClient s.client) :
    Recites env (identify e t >>= fun code => if code ≠ 250 then Pure.pure code else authenticateIfNeeded)
      (.then (.one [(.cmd, ehloCmd)]) (authScripts s.client.credential)) (· = 0) s := by
  refine .seq (identify_recites e t s) (.inr (identify_zero he ht)) (identify_steps (fun _ _ _ => ⟨rfl, rfl⟩) e t) (authScripts_good hm) fun s1 h1 => ?_
  rw [← h1.1]
  exact authenticateIfNeeded_recites s1 (by unfold ModestClient; rw [h1.1]; exact hm)

theorem bind_assoc_recites {γ : Type} {p : M α} {f : α → M β} {g : β → M γ} {S : Scripts} {C : γ → Prop} {s : St}
    (h : Recites env (p >>= fun a => f a >>= g) S C s) : Recites env ((p >>= f) >>= g) S C s := by
  unfold Recites at h ⊢
  rw [wp_bind] at h ⊢
  rw [wp_bind]
  exact wp_mono h (fun _ _ h => by rw [wp_bind] at h; exact h) (fun _ _ h => h)

theorem secure_auth_recites (s : St) (hm : ModestClient s.client) :
    Recites env (getServerSecureIdentification >>= fun code => if code ≠ 250 then Pure.pure code else authenticateIfNeeded)
      (.then (.one [(.cmd, ehloCmd)]) (authScripts s.client.credential)) (· = 0) s := by
  unfold getServerSecureIdentification
  refine bind_assoc_recites (.mute (addLog_steps _ _) (addLog_steps _ _) (.then .one (authScripts_good hm)) fun _ s1 h1 => ?_)
  rw [← h1.1]
  exact identify_auth_recites (-59) (-60) (by decide) (by decide) s1 (by unfold ModestClient; rw [h1.1]; exact hm)

/-- The commands an opportunistic client sends after its first EHLO. -/
abbrev upgradeScripts (o : Option Credential) : Scripts := fun _ l =>
  l = [] ∨ ∃ a, AuthScript o a ∧ l = asCmds ([b!"STARTTLS\r\n", b!"ehlo localhost\r\n"] ++ a)

theorem establishOpportunistic_recites (s : St) (hm : ModestClient s.client) :
    Recites env establishOpportunistic (upgradeScripts s.client.credential) (· = 0) s := by
  have good : (upgradeScripts s.client.credential).Good := .of ⟨[], .inl rfl⟩
  unfold establishOpportunistic Recites
  rw [wp_bind, wp_gets]
  cases isStartTLSSupported s.client.lastResponse with
  | error u => exact Out.nothing (.refl _) id good
  | ok b =>
    cases b with
    | false =>
      dsimp only
      refine Recites.mono (Recites.silent ?_) ?_ (fun _ h => h)
      · unfold setKeepUsingBase
        steps [addLog_steps, Steps.modify]
        exact Opening.keep _
      · rintro _ _ rfl
        exact .inl rfl
    | true =>
      dsimp only
      refine Recites.mute (addLog_steps _ _) (addLog_steps _ _) good fun _ s1 h1 => ?_
      unfold upgradeToSecureConnection
      refine bind_assoc_recites (.mute (addLog_steps _ _) (addLog_steps _ _) good fun _ s2 h2 => ?_)
      have h12 : SameUser s s2 := Preord.trans h1 h2
      refine Recites.mono (Recites.seq (Recites.first (sendRawFb_first _ _ _)) (.inr (sendRawFb_zero (by decide) (by decide)))
        (sendRawFb_steps (fun _ _ _ => ⟨rfl, rfl⟩) _ _) (.then (S := .one []) .one (.then (S := .one [(.cmd, ehloCmd)]) .one (authScripts_good hm))) fun s3 h3 =>
        Recites.seq (Recites.silent startTLSNegotiation_steps) (.inl rfl) startTLSNegotiation_steps
          (.then (S := .one [(.cmd, ehloCmd)]) .one (authScripts_good hm)) fun s4 h4 => ?_) ?_ (fun _ h => h)
      · have h14 : SameUser s s4 := Preord.trans h12 (Preord.trans h3 h4)
        rw [← h14.1]
        exact secure_auth_recites s4 (by unfold ModestClient; rw [h14.1]; exact hm)
      · rintro _ _ ⟨_, _, _, _, rfl, rfl, rfl, _, _, _, _, rfl, rfl, rfl, _, _, _, _, rfl, rfl, rfl, a, ha, rfl⟩
        exact .inr ⟨a, ha, rfl⟩

theorem establishGreeted_recites {rest : M Int} {T : Scripts} (s : St) (hT : T.Good)
    (h : ∀ s1, SameUser s s1 → Recites env rest T (· = 0) s1) :
    Recites env (establishGreeted rest) (.then (.one [(.cmd, ehloCmd)]) T) (· = 0) s := by
  unfold establishGreeted sendServerIdentification
  refine Recites.mono (Recites.seq (Recites.silent checkServerGreetings_steps) (.inr checkServerGreetings_zero) checkServerGreetings_steps
    (.then (S := .one [(.cmd, ehloCmd)]) .one hT) fun s1 h1 => Recites.seq (identify_recites _ _ s1) (.inr (identify_zero (by decide) (by decide)))
      (identify_steps (fun _ _ _ => ⟨rfl, rfl⟩) _ _) hT fun s2 h2 => h s2 (Preord.trans h1 h2)) ?_ (fun _ h => h)
  rintro _ _ ⟨h1, h2, _, _, rfl, rfl, rfl, h3, h4, l1, l2, rfl, rfl, h5, h6⟩
  exact ⟨h1 ++ h3, h4, l1, l2, by simp, by simp, h5, h6⟩

/-- The scripts of the opening. -/
abbrev openingScripts (c : Client) : Scripts := fun _ l => ∃ a, OpeningScript c a ∧ l = asCmds a

theorem establish_recites (s : St) (hm : ModestClient s.client) (hn : s.client.isConnected = false) :
    Recites env establish (openingScripts s.client) (· = 0) s := by
  have ga := authScripts_good hm
  have key : ∀ s1, SameUser s s1 → Recites env (do
      match ← M.gets (·.kind) with
      | .smtp => establishGreeted authenticateIfNeeded
      | .opportunistic => establishGreeted establishOpportunistic
      | .forced => establishForced) (openingScripts s.client) (· = 0) s1 := by
    intro s1 h1
    unfold Recites
    rw [wp_bind, wp_gets]
    cases hk : s1.client.kind with
    | smtp =>
      dsimp only
      refine Recites.mono (establishGreeted_recites s1 ga fun s2 h2 => ?_) ?_ (fun _ h => h)
      · have h12 : SameUser s s2 := Preord.trans h1 h2
        rw [← h12.1]
        exact authenticateIfNeeded_recites s2 (by unfold ModestClient; rw [h12.1]; exact hm)
      · rintro _ _ ⟨_, _, _, _, rfl, rfl, rfl, a, ha, rfl⟩
        refine ⟨ehloCmd :: a, ?_, rfl⟩
        rw [h1.2] at hk
        unfold OpeningScript
        rw [if_neg (by simp [hn]), hk]
        exact ⟨a, ha, rfl⟩
    | opportunistic =>
      dsimp only
      refine Recites.mono (establishGreeted_recites s1 (T := upgradeScripts s.client.credential) (.of ⟨[], .inl rfl⟩) fun s2 h2 => ?_) ?_ (fun _ h => h)
      · have h12 : SameUser s s2 := Preord.trans h1 h2
        rw [← h12.1]
        exact establishOpportunistic_recites s2 (by unfold ModestClient; rw [h12.1]; exact hm)
      · obtain ⟨_, a0, ha0, _⟩ := ga.some
        rw [h1.2] at hk
        have intro : ∀ a l, AuthScript s.client.credential a → (l = [ehloCmd] ∨ l = [ehloCmd, startTlsCmd, ehloCmd] ++ a) → OpeningScript s.client l := by
          intro a l ha hl
          unfold OpeningScript
          rw [if_neg (by simp [hn]), hk]
          exact ⟨a, ha, hl⟩
        rintro _ _ ⟨_, _, _, _, rfl, rfl, rfl, (rfl | ⟨a, ha, rfl⟩)⟩
        · exact ⟨_, intro a0 _ ha0 (.inl rfl), rfl⟩
        · exact ⟨_, intro a _ ha (.inr rfl), rfl⟩
    | forced =>
      dsimp only
      unfold establishForced
      refine Recites.mono (Recites.seq (Recites.silent startTLSNegotiation_steps) (.inl rfl) startTLSNegotiation_steps
        (.then (S := .one []) .one (.then (S := .one [(.cmd, ehloCmd)]) .one ga)) fun s2 h2 =>
        Recites.seq (Recites.silent checkServerGreetings_steps) (.inr checkServerGreetings_zero) checkServerGreetings_steps (.then (S := .one [(.cmd, ehloCmd)]) .one ga) fun s3 h3 => ?_) ?_ (fun _ h => h)
      · have h13 : SameUser s s3 := Preord.trans h1 (Preord.trans h2 h3)
        rw [← h13.1]
        exact secure_auth_recites s3 (by unfold ModestClient; rw [h13.1]; exact hm)
      · rintro _ _ ⟨_, _, _, _, rfl, rfl, rfl, _, _, _, _, rfl, rfl, rfl, _, _, _, _, rfl, rfl, rfl, a, ha, rfl⟩
        refine ⟨ehloCmd :: a, ?_, rfl⟩
        rw [h1.2] at hk
        unfold OpeningScript
        rw [if_neg (by simp [hn]), hk]
        exact ⟨a, ha, rfl⟩
  have good : (openingScripts s.client).Good := by
    refine .of ?_
    obtain ⟨_, a, ha, _⟩ := ga.some
    have : ∃ l, OpeningScript s.client l := by
      simp only [OpeningScript, hn, Bool.false_eq_true, if_false]
      cases s.client.kind
      · exact ⟨_, a, ha, rfl⟩
      · exact ⟨_, a, ha, .inl rfl⟩
      · exact ⟨_, a, ha, rfl⟩
    obtain ⟨l, hl⟩ := this
    exact ⟨_, l, hl, rfl⟩
  unfold establish
  refine Recites.mono (Recites.seq (Recites.silent initializeSession_steps) (.inl rfl) initializeSession_steps good fun s1 h1 => key s1 h1) ?_ (fun _ h => h)
  rintro _ _ ⟨_, _, _, _, rfl, rfl, rfl, h⟩
  exact h

/-! ### The mail -/

theorem sendPtrFb_zero {d : Bytes} {e t : Int} (he : e ≠ 0) (ht : t ≠ 0) : ZeroCoded env (sendPtrFb d e t) := by
  unfold sendPtrFb
  exact zeroCoded_bind (.gets _) fun _ => zeroCoded_ite (sendRawFb_zero he ht) (sendFb_zero he ht)

theorem mailFromLoop_zero (l : List Bytes) (c : Int) (h : c ≠ 0 ∨ l ≠ []) : ZeroCoded env (mailFromLoop c l) := by
  induction l generalizing c with
  | nil =>
    unfold mailFromLoop
    exact zeroCoded_pure (by simpa using h)
  | cons f l ih =>
    unfold mailFromLoop
    refine zeroCoded_bind (addLog_steps _ _) fun _ => ?_
    intro s
    unfold post
    rw [wp_bind]
    refine post_mono (sendPtrFb_zero (by decide) (by decide) s) fun code s1 ⟨h1, x1⟩ => ?_
    simp only [wp_ite]
    refine ⟨fun _ => ⟨fun h => absurd h (by decide), x1⟩, fun _ => ⟨fun _ => ⟨h1, x1⟩, fun hc => ?_⟩⟩
    exact post_mono (ih code (.inl (by omega)) s1) fun _ _ h => ⟨fun h0 => (h.1 h0).after x1, x1.trans h.2⟩

/-- Texts as commands, up to their first NUL. -/
abbrev cstrCmds (l : List Bytes) : List Utterance := l.map fun d => (.cmd, cstr d)

/-- Texts as content, up to their first NUL. -/
abbrev cstrContents (l : List Bytes) : List Utterance := l.map fun d => (.content, cstr d)

theorem mailFromLoop_recites (l : List Bytes) (c : Int) (s : St) :
    Recites env (mailFromLoop c l) (fun _ t => ∃ f, f <+: l ∧ (l ≠ [] → f ≠ []) ∧ t = cstrCmds f) (fun _ => True) s := by
  induction l generalizing c s with
  | nil =>
    unfold mailFromLoop
    exact .pure ⟨[], List.prefix_rfl, fun h => absurd rfl h, rfl⟩
  | cons f l ih =>
    have good : Scripts.Good fun _ t => ∃ g, g <+: f :: l ∧ (f :: l ≠ [] → g ≠ []) ∧ t = cstrCmds g := .of ⟨_, _, List.prefix_rfl, id, rfl⟩
    unfold mailFromLoop
    refine .mute (addLog_steps _ _) (addLog_steps _ _) good fun _ s1 _ => ?_
    unfold Recites
    rw [wp_bind]
    have one : ∀ P Q s', Out (.one [(.cmd, cstr f)]) P s1 s' → (Q → P) → Out (fun _ t => ∃ g, g <+: f :: l ∧ (f :: l ≠ [] → g ≠ []) ∧ t = cstrCmds g) Q s1 s' := by
      intro P Q s' h hq
      refine (h.mono hq).weaken ?_
      rintro _ _ rfl
      exact ⟨[f], by simp, by simp, rfl⟩
    refine wp_mono (Recites.first (C := fun _ => True) (sendPtrFb_first f (-85) (-86))) (fun code s2 h2 => ?_) (fun _ s2 h => one _ _ _ h id)
    simp only [wp_ite]
    refine ⟨fun _ => one _ _ _ h2 id, fun _ => ⟨fun _ => one _ _ _ h2 id, fun _ => ?_⟩⟩
    have step : ∀ P s3, Out (fun _ t => ∃ g, g <+: l ∧ (l ≠ [] → g ≠ []) ∧ t = cstrCmds g) P s2 s3 →
        Out (fun _ t => ∃ g, g <+: f :: l ∧ (f :: l ≠ [] → g ≠ []) ∧ t = cstrCmds g) P s1 s3 := by
      intro P s3 h3
      refine (h2.then h3).weaken ?_
      rintro _ _ ⟨_, _, _, _, rfl, rfl, rfl, g, hg, _, rfl⟩
      exact ⟨f :: g, by simpa using hg, by simp, rfl⟩
    exact wp_mono (ih code s2) (fun _ _ h => step _ _ h) (fun _ _ h => step _ _ h)

theorem addMailRecipients_zero (l : List MessageAddress) (c : Int) (hc : c ≠ 0) : ZeroCoded env (addMailRecipients c l) := by
  have key : ∀ (l : List MessageAddress) (c : Int) (s0 s : St), Ext s0 s → (c = 0 → ZeroRead s0 s) →
      post env (addMailRecipients c l) (fun code s' => (code = 0 → ZeroRead s0 s') ∧ Ext s0 s') s := by
    intro l
    induction l with
    | nil => intro c s0 s h1 h2; exact ⟨h2, h1⟩
    | cons a l ih =>
      intro c s0 s h1 h2
      unfold addMailRecipients post
      rw [wp_bind]
      refine post_mono (post_steps (addLog_steps (R := Ext) _ _) s) fun _ s1 x1 => ?_
      rw [wp_bind]
      refine post_mono (sendPtrFb_zero (by decide) (by decide) s1) fun code s2 ⟨z2, x2⟩ => ?_
      refine ih _ _ _ ((h1.trans x1).trans x2) ?_
      split
      · exact fun h => (z2 h).after (h1.trans x1)
      · exact fun h => ((h2 h).before x1).before x2
  exact fun s => key l c s s (.same rfl) fun h => absurd h hc

theorem addMailRecipients_same (l : List MessageAddress) (c : Int) : Steps env SameUser (addMailRecipients c l) := by
  induction l generalizing c with
  | nil => unfold addMailRecipients; steps []
  | cons a l ih => unfold addMailRecipients; steps [addLog_steps, same_cmd, ih]

/-- The RCPT TO commands. -/
abbrev rcpts (l : List MessageAddress) : List Utterance := cstrCmds (l.map rcptTo)

theorem addMailRecipients_recites (l : List MessageAddress) (c : Int) (s : St) :
    Recites env (addMailRecipients c l) (.one (rcpts l)) (fun _ => True) s := by
  induction l generalizing c s with
  | nil =>
    unfold addMailRecipients
    exact .pure rfl
  | cons a l ih =>
    unfold addMailRecipients
    refine .mute (addLog_steps _ _) (addLog_steps _ _) .one fun _ s1 _ => ?_
    unfold Recites
    rw [wp_bind]
    have join : ∀ P s2 s3, Out (.one [(.cmd, cstr (rcptTo a))]) True s1 s2 → Out (.one (rcpts l)) P s2 s3 → Out (.one (rcpts (a :: l))) P s1 s3 := by
      intro P s2 s3 h h'
      refine (h.then h').weaken ?_
      rintro _ _ ⟨_, _, _, _, rfl, rfl, rfl, rfl⟩
      rfl
    refine wp_mono (Recites.first (C := fun _ => True) (sendPtrFb_first (rcptTo a) (-87) (-88))) (fun code s2 h2 => ?_) (fun _ s2 h => ?_)
    · exact wp_mono (ih _ s2) (fun _ _ h => join _ _ _ h2 h) (fun _ _ h => join _ _ _ h2 h)
    · refine (h.stop (T := .one (rcpts l)) .one id).weaken ?_
      rintro _ _ ⟨_, _, _, _, rfl, rfl, rfl, rfl⟩
      rfl

theorem arrElems_recites {a : Arr β} {f : List β → M α} {S : Scripts} {C : α → Prop} {s : St} (hS : S.Good)
    (h : ∀ l, l = elems a → (0 < a.count → l ≠ []) → Recites env (f l) S C s) : Recites env (arrElems a >>= f) S C s := by
  unfold Recites
  rw [wp_bind]
  refine wp_mono (wp_and (arrElems_post (env := env) a s) ((arrElems_steps (R := Mute) a).run s)) ?_ (fun _ _ h => Out.nothing h.2 id hS)
  rintro _ _ ⟨⟨rfl, rfl, hne⟩, _⟩
  exact h _ rfl hne

theorem elems_null {a : Arr β} (h : a.ptr.isNone = true) : elems a = [] := by
  unfold elems
  rw [Option.isNone_iff_eq_none.mp h]
  simp

theorem recipientsLoop_recites (l : List (Arr MessageAddress)) (s : St) :
    Recites env (recipientsLoop l) (.one (rcpts (l.flatMap elems))) (· = 0) s := by
  induction l generalizing s with
  | nil =>
    unfold recipientsLoop
    exact .pure rfl
  | cons a l ih =>
    unfold recipientsLoop Recites
    rw [wp_ite]
    refine ⟨fun hn => ?_, fun _ => ?_⟩
    · rw [List.flatMap_cons, elems_null hn, List.nil_append]
      exact ih s
    · refine arrElems_recites .one fun x hx _ => ?_
      subst hx
      refine Recites.mono (Recites.seq ((addMailRecipients_recites (elems a) 250 s).mono (fun _ _ h => h) (fun _ _ => trivial))
        (.inr (addMailRecipients_zero _ _ (by decide))) ?_ (.one (l := rcpts (l.flatMap elems))) fun s1 _ => ih s1) ?_ (fun _ h => h)
      · exact addMailRecipients_same _ _
      · rintro _ _ ⟨_, _, _, _, rfl, rfl, rfl, rfl⟩
        simp [Scripts.one]

theorem setMailRecipients_recites (m : Message) (s : St) :
    Recites env (setMailRecipients m) (.then (fun _ t => ∃ f, f <+: senderForms m.from ∧ f ≠ [] ∧ t = cstrCmds f) (.one (rcpts (recipients m)))) (· = 0) s := by
  unfold setMailRecipients
  refine .seq ?_ (.inr (mailFromLoop_zero _ _ (.inr (by simp [mailFormats_eq, senderForms])))) ?_ .one fun s1 _ => ?_
  · refine (mailFromLoop_recites (mailFormats m.from) 0 s).mono ?_ (fun _ _ => trivial)
    rintro _ _ ⟨f, h1, h2, h3⟩
    rw [mailFormats_eq] at h1 h2
    exact ⟨f, h1, h2 (by simp [senderForms]), h3⟩
  · generalize mailFormats m.from = l
    have : ∀ c, Steps env SameUser (mailFromLoop c l) := by
      induction l with
      | nil => intro c; unfold mailFromLoop; steps []
      | cons a l ih => intro c; unfold mailFromLoop; steps [addLog_steps, same_cmd, ih]
    exact this 0
  · have := recipientsLoop_recites (env := env) [m.to, m.cc, m.bcc] s1
    have e : [m.to, m.cc, m.bcc].flatMap elems = recipients m := by simp [recipients]
    rwa [e] at this

/-! ### The content -/

/-- There is no connection left over which content could be sent: the TLS connection is gone and the base commands are not in use. -/
def Cut (s : St) : Prop := (s.client.ptrRaw || s.client.kind == .smtp) = false ∧ s.client.bio = none

/-- Once cut, always cut. -/
def StaysCut (s s' : St) : Prop := Cut s → Cut s'

instance : Cleaning StaysCut where
  refl := fun _ h => h
  trans := fun h h' x => h' (h x)
  log := fun _ _ _ _ _ _ _ h => h
  errno := fun _ _ h => h
  resp := fun _ _ h => h
  auth := fun _ _ h => h
  fcntlGet := fun _ _ _ h => h
  fcntlSet := fun _ _ _ _ h => h
  select := fun _ _ _ h => h
  sockopt := fun _ _ _ h => h
  resolve := fun _ _ _ h => h
  connect := fun _ _ _ _ h => h
  sleep := fun _ h => h
  recv := fun _ _ _ h => h
  disconnected := fun _ h => h
  ctx := fun _ _ h => h
  noBio := fun _ h => ⟨h.1, rfl⟩
  noSock := fun _ h => h
  close := fun _ _ h => h
  bioFree := fun _ _ h => h
  quit := fun _ _ _ h => h

instance : Filing StaysCut where
  readFile := fun _ _ _ h => h

/-- Silent, and cut at the end if at the beginning. -/
theorem cut_steps {p : M α} (h : Steps env Mute p) (h' : Steps env StaysCut p) (s : St) (hc : Cut s) :
    wp env p (fun _ s' => Mute s s' ∧ Cut s') (fun _ s' => Mute s s') s :=
  wp_mono (wp_and (h.run s) (h'.run s)) (fun _ _ h => ⟨h.1, h.2 hc⟩) (fun _ _ h => h.1)

theorem sendPtr_cut (d : Bytes) (e : Int) (s : St) (hc : Cut s) :
    wp env (sendPtr .content d e) (fun code s' => code = e ∧ Mute s s' ∧ Cut s') (fun _ s' => Mute s s') s := by
  unfold sendPtr sendPtrWith
  simp only [wp_bind, wp_gets, hc.1, wp_ite]
  refine ⟨fun h => by simp at h, fun _ => ?_⟩
  unfold sendBioWith
  rw [wp_bind, wp_gets, hc.2]
  dsimp only
  have : ∀ s1, Mute s s1 → Cut s1 → wp env (cleanup >>= fun _ => (pure e : M Int)) (fun code s' => code = e ∧ Mute s s' ∧ Cut s') (fun _ s' => Mute s s') s1 := by
    intro s1 h1 h2
    rw [wp_bind]
    exact wp_mono (cut_steps cleanup_steps cleanup_steps s1 h2) (fun _ _ h => ⟨rfl, h1.trans h.1, h.2⟩) (fun _ _ h => h1.trans h)
  rw [wp_bind]
  refine wp_mono (cut_steps (.ask' _) (.ask' _) s hc) (fun a s1 ⟨h1, h2⟩ => ?_) (fun _ _ h => h)
  rw [wp_bind]
  refine wp_mono (cut_steps (setErrNo_steps _) (setErrNo_steps _) s1 h2) (fun _ s2 ⟨h3, h4⟩ => this s2 (h1.trans h3) h4) (fun _ _ h => h1.trans h)

/-- Sending content: it is tried, or there is no connection. -/
theorem sendPtr_content (d : Bytes) (e : Int) (s : St) :
    wp env (sendPtr .content d e) (fun code s' => Out (.one [(.content, cstr d)]) True s s' ∨ (code = e ∧ Mute s s' ∧ Cut s'))
      (fun _ s' => Out (.one [(.content, cstr d)]) False s s') s := by
  by_cases hcut : Cut s
  · exact wp_mono (sendPtr_cut d e s hcut) (fun _ _ h => .inr h) (fun _ _ h => Out.nothing h id .one)
  unfold sendPtr sendPtrWith
  simp only [wp_bind, wp_gets, wp_ite]
  refine ⟨fun _ => ?_, fun hr => ?_⟩
  · obtain ⟨ch, r, h⟩ := sendRawWith_first (env := env) (R := Mute) cleanup_steps .content d e s
    exact wp_mono h (fun _ _ h => .inl (.first (by decide) h)) (fun _ _ h => .first (by decide) h)
  · cases hb : s.client.bio with
    | none => exact absurd ⟨by simpa using hr, hb⟩ hcut
    | some b =>
      unfold sendBioWith
      rw [wp_bind, wp_gets, hb]
      dsimp only
      have : SendsFirst env Mute .content (cstr d) (do
          match ← sysSend .content (.tls b.id b.fd) (cstr d) with
          | .fail _ => do
            setErrNo (← M.ask' (·.tlsErr))
            cleanup
            pure e
          | _ => pure (0 : Int) : M Int) := by
        refine .sysSend fun r => ?_
        steps [setErrNo_steps, cleanup_steps]
      obtain ⟨ch, r, h⟩ := this s
      exact wp_mono h (fun _ _ h => .inl (.first (by decide) h)) (fun _ _ h => .first (by decide) h)

theorem content_recites (d : Bytes) (e : Int) (he : e ≠ 0) (s : St) : Recites env (sendPtr .content d e) (.one [(.content, cstr d)]) (· = 0) s := by
  refine wp_mono (sendPtr_content d e s) ?_ (fun _ _ h => h)
  rintro code s' (h | ⟨rfl, h, _⟩)
  · exact h.mono fun _ => trivial
  · exact Out.nothing h he .one

theorem same_content {d : Bytes} {e : Int} : Steps env SameUser (sendPtr .content d e) := sendPtr_steps (fun _ _ _ => ⟨rfl, rfl⟩) e

/-- With no connection the program fails and says nothing. -/
def CutShort (env : Env) (q : M Int) : Prop := ∀ s, Cut s → wp env q (fun code s' => code ≠ 0 ∧ Mute s s') (fun _ s' => Mute s s') s

theorem addressHeader_cut (f : Bytes) (a : Arr MessageAddress) (s : St) (hc : Cut s) :
    wp env (addressHeader f a) (fun _ s' => Mute s s' ∧ Cut s') (fun _ s' => Mute s s') s := by
  unfold addressHeader
  rw [wp_ite]
  refine ⟨fun _ => ?_, fun _ => ⟨.refl _, hc⟩⟩
  rw [wp_bind]
  refine wp_mono (cut_steps (arrElems_steps a) (arrElems_steps a) s hc) (fun l s1 ⟨h1, c1⟩ => ?_) (fun _ _ h => h)
  unfold addMailHeader
  simp only [wp_bind]
  refine wp_mono (cut_steps (addLog_steps _ _) (addLog_steps _ _) s1 c1) (fun _ s2 ⟨h2, c2⟩ => ?_) (fun _ _ h => h1.trans h)
  exact wp_mono (sendPtr_cut _ _ s2 c2) (fun _ _ h => ⟨(h1.trans h2).trans h.2.1, h.2.2⟩) (fun _ _ h => (h1.trans h2).trans h)

theorem addressHeader_said (f : Bytes) (a : Arr MessageAddress) (s : St) :
    wp env (addressHeader f a) (fun _ s' => Out (.one (cstrContents (addressLines f a))) True s s' ∨
        (Out (.one (cstrContents (addressLines f a))) False s s' ∧ Cut s'))
      (fun _ s' => Out (.one (cstrContents (addressLines f a))) False s s') s := by
  unfold addressHeader
  rw [wp_ite]
  refine ⟨fun hc => ?_, fun hc => .inl ?_⟩
  · rw [wp_bind]
    refine wp_mono (wp_and (arrElems_post (env := env) a s) ((arrElems_steps (R := Mute) a).run s)) ?_ (fun _ _ h => Out.nothing h.2 id .one)
    rintro _ _ ⟨⟨rfl, rfl, hne⟩, _⟩
    unfold addMailHeader addressLines
    rw [if_neg (hne hc)]
    simp only [wp_bind]
    refine wp_mono ((addLog_steps (R := Mute) _ _).run _) (fun _ s1 h1 => ?_) (fun _ _ h => Out.nothing h id .one)
    refine wp_mono (sendPtr_content _ _ s1) ?_ (fun _ _ h => h.after h1 .one)
    rintro code s2 (h | ⟨_, h, hcut⟩)
    · exact .inl (h.after h1 .one)
    · exact .inr ⟨Out.nothing (h1.trans h) id .one, hcut⟩
  · have : elems a = [] := by
      unfold elems
      rw [Nat.eq_zero_of_not_pos hc, List.take_zero]
    unfold addressLines
    rw [if_pos this]
    exact Out.mute (.refl _) fun _ _ => rfl

theorem header_recites {q : M Int} {T : Scripts} (hT : T.Good) (h : ∀ s, Recites env q T (· = 0) s) (hc : CutShort env q)
    (f : Bytes) (a : Arr MessageAddress) (s : St) :
    Recites env (addressHeader f a >>= fun _ => q) (.then (.one (cstrContents (addressLines f a))) T) (· = 0) s := by
  unfold Recites
  rw [wp_bind]
  refine wp_mono (addressHeader_said f a s) ?_ (fun _ _ h => h.stop hT id)
  rintro _ s1 (h1 | ⟨h1, c1⟩)
  · exact wp_mono (h s1) (fun _ _ h2 => h1.then h2) (fun _ _ h2 => h1.then h2)
  · exact wp_mono (hc s1 c1) (fun _ _ h2 => (h1.before h2.2 .one).stop hT h2.1) (fun _ _ h2 => (h1.before h2 .one).stop hT id)

theorem header_cutShort {q : M Int} (hc : CutShort env q) (f : Bytes) (a : Arr MessageAddress) : CutShort env (addressHeader f a >>= fun _ => q) := by
  intro s hs
  rw [wp_bind]
  refine wp_mono (addressHeader_cut f a s hs) (fun _ s1 ⟨h1, c1⟩ => ?_) (fun _ _ h => h)
  exact wp_mono (hc s1 c1) (fun _ _ h => ⟨h.1, h1.trans h.2⟩) (fun _ _ h => h1.trans h)

theorem setMailHeaders_recites (m : Message) (s : St) :
    Recites env (setMailHeaders m) (.one ((.cmd, dataCmd) :: cstrContents (headerLines m))) (· = 0) s := by
  have last : ∀ s, Recites env (do
      addLog contentTypeLine
      let code ← sendPtr .content contentTypeLine (-94)
      if code ≠ 0 then pure code else pure 0) (.one [(.content, cstr contentTypeLine)]) (· = 0) s := by
    intro s
    refine .mute (addLog_steps _ _) (addLog_steps _ _) .one fun _ s1 _ => ?_
    refine Recites.mono (Recites.seq (content_recites _ _ (by decide) s1) (.inl rfl) same_content (T := .one []) .one fun s2 _ => .pure rfl) ?_ (fun _ h => h)
    rintro _ _ ⟨_, _, _, _, rfl, rfl, rfl, rfl⟩
    simp [Scripts.one]
  have subject : ∀ s, Recites env (do
      addLog (subjectLine m.subject)
      let code ← sendPtr .content (subjectLine m.subject) (-93)
      if code ≠ 0 then pure code
      else do
        addLog contentTypeLine
        let code ← sendPtr .content contentTypeLine (-94)
        if code ≠ 0 then pure code else pure 0) (.then (.one [(.content, cstr (subjectLine m.subject))]) (.one [(.content, cstr contentTypeLine)])) (· = 0) s := by
    intro s
    refine .mute (addLog_steps _ _) (addLog_steps _ _) (.then .one .one) fun _ s1 _ => ?_
    exact Recites.seq (content_recites _ _ (by decide) s1) (.inl rfl) same_content .one fun s2 _ => last s2
  have cut : CutShort env (do
      addLog (subjectLine m.subject)
      let code ← sendPtr .content (subjectLine m.subject) (-93)
      if code ≠ 0 then pure code
      else do
        addLog contentTypeLine
        let code ← sendPtr .content contentTypeLine (-94)
        if code ≠ 0 then pure code else pure 0) := by
    intro s hs
    rw [wp_bind]
    refine wp_mono (cut_steps (addLog_steps _ _) (addLog_steps _ _) s hs) (fun _ s1 ⟨h1, c1⟩ => ?_) (fun _ _ h => h)
    rw [wp_bind]
    refine wp_mono (sendPtr_cut _ _ s1 c1) (fun code s2 ⟨h2, h3, _⟩ => ?_) (fun _ _ h => h1.trans h)
    rw [wp_ite]
    have h0 : code ≠ 0 := by rw [h2]; decide
    exact ⟨fun _ => ⟨h0, h1.trans h3⟩, fun h => absurd h0 h⟩
  have g : (Scripts.then (.one [(.content, cstr (subjectLine m.subject))]) (.one [(.content, cstr contentTypeLine)])).Good := .then .one .one
  have cc := fun s => header_recites (env := env) g subject cut b!"Cc" m.cc s
  have gcc : (Scripts.then (.one (cstrContents (addressLines b!"Cc" m.cc))) (Scripts.then (.one [(.content, cstr (subjectLine m.subject))]) (.one [(.content, cstr contentTypeLine)]))).Good := .then .one g
  have to := fun s => header_recites (env := env) gcc cc (header_cutShort cut b!"Cc" m.cc) b!"To" m.to s
  have gto : (Scripts.then (.one (cstrContents (addressLines b!"To" m.to))) _).Good := .then .one gcc
  unfold setMailHeaders
  refine .mute (addLog_steps _ _) (addLog_steps _ _) .one fun _ s1 _ => ?_
  unfold addMailHeader
  refine Recites.mono (Recites.seq (Recites.first (sendPtrFb_first _ _ _)) (.inr (sendPtrFb_zero (by decide) (by decide))) same_cmd
    (.then (S := .one [(.content, cstr (headerLine b!"From" (fromHeaderValue m.from)))]) .one gto) fun s2 _ => bind_assoc_recites (.mute (addLog_steps _ _) (addLog_steps _ _) (.then .one gto) fun _ s3 _ =>
      Recites.seq (content_recites _ _ (by decide) s3) (.inl rfl) same_content gto fun s4 _ => to s4)) ?_ (fun _ h => h)
  rintro _ _ ⟨_, _, _, _, rfl, rfl, rfl, _, _, _, _, rfl, rfl, rfl, _, _, _, _, rfl, rfl, rfl, _, _, _, _, rfl, rfl, rfl, _, _, _, _, rfl, rfl, rfl, rfl⟩
  have e1 : cstr dataCmd = dataCmd := by decide
  simp [Scripts.one, headerLines, e1]

/-- Nothing is said and there is nothing to say. -/
def Scripts.none : Scripts := fun h l => l = [] ∧ uttered h = []

theorem Scripts.Good.none : Scripts.none.Good :=
  ⟨fun e h l he hl => ⟨hl.1, by rw [uttered_append, he, hl.2]; rfl⟩, fun e h l he hl => ⟨hl.1, by rw [uttered_append, he, hl.2]; rfl⟩, ⟨[], rfl, rfl⟩⟩

theorem Recites.quiet {p : M α} {C : α → Prop} {s : St} (h : Steps env Mute p) : Recites env p .none C s :=
  wp_mono (h.run s) (fun _ _ h => Out.mute h fun _ hu => ⟨rfl, hu⟩) (fun _ _ h => Out.mute h fun _ hu => ⟨rfl, hu⟩)

theorem sendPieces_recites (l : List Bytes) (s : St) : Recites env (sendPieces l) (.one (cstrContents l)) (· = 0) s := by
  induction l generalizing s with
  | nil =>
    unfold sendPieces
    exact .pure rfl
  | cons p l ih =>
    unfold sendPieces
    refine Recites.mono (Recites.seq (content_recites _ _ (by decide) s) (.inl rfl) same_content (.one (l := cstrContents l)) fun s2 _ => ih s2) ?_ (fun _ h => h)
    rintro _ _ ⟨_, _, _, _, rfl, rfl, rfl, rfl⟩
    rfl

theorem sendBodyText_recites (t : Bytes) : ∃ l : List Bytes, l.flatten = t ∧ ∀ s, Recites env (sendBodyText t) (.one (cstrContents l)) (· = 0) s := by
  unfold sendBodyText
  by_cases h : t.length > 512
  · rw [if_pos h]
    exact ⟨_, by rw [bodyPieces_flatten _ _ _ (by omega), List.drop_zero], fun s => sendPieces_recites _ s⟩
  · rw [if_neg h]
    refine ⟨[t], by simp, fun s => Recites.mono (Recites.seq (content_recites _ _ (by decide) s) (.inl rfl) same_content (T := .one []) .one
      fun s2 _ => .pure rfl) ?_ (fun _ h => h)⟩
    rintro _ _ ⟨_, _, _, _, rfl, rfl, rfl, rfl⟩
    rfl

theorem sendBodyText_same (t : Bytes) : Steps env SameUser (sendBodyText t) := by
  have : ∀ l, Steps env SameUser (sendPieces l) := by
    intro l
    induction l with
    | nil => unfold sendPieces; steps []
    | cons p l ih => unfold sendPieces; steps [same_content]
  unfold sendBodyText
  steps [same_content, this]

/-- The script of the body with its exact text. -/
def BodyExactly (m : Message) (files : List (Option Bytes)) (l : List Utterance) : Prop :=
  ∃ body : List Bytes, body.flatten = bodyText m files ∧ l = body.map (.content, ·) ++ [(.cmd, b!"\r\n.\r\n")]

/-- The scripts of the body. -/
def bodyScripts (m : Message) : Scripts := fun h l =>
  ∃ files, (ScriptOfBody m files l ∧ BodyExactly m files l) ∧ (uttered h = [] ∨ FilesRead m files h)

theorem bodyScripts_good (m : Message) : (bodyScripts m).Good where
  pre := by
    rintro e h l he ⟨files, h1, h2⟩
    refine ⟨files, h1, h2.imp (fun h => by rw [uttered_append, he, h]; rfl) fun h => ⟨h.1, fun p hp => ?_⟩⟩
    exact List.mem_append_right _ (h.2 p hp)
  post := by
    rintro e h l he ⟨files, h1, h2⟩
    refine ⟨files, h1, h2.imp (fun h => by rw [uttered_append, he, h]; rfl) fun h => ⟨h.1, fun p hp => ?_⟩⟩
    exact List.mem_append_left _ (h.2 p hp)
  some := by
    refine ⟨_, (elems m.attachments).map fun _ => Option.none, ⟨⟨[bodyText m ((elems m.attachments).map fun _ => Option.none)], ?_, rfl⟩,
      ⟨[bodyText m ((elems m.attachments).map fun _ => Option.none)], by simp, rfl⟩⟩, .inl rfl⟩
    have := bodyText_mime (m := m) (files := (elems m.attachments).map fun _ => Option.none) (by simp)
    simpa using this

theorem setMailBody_recites {m : Message} (hm : NulFree m) (s : St) : Recites env (setMailBody m) (bodyScripts m) (· = 0) s := by
  unfold setMailBody
  refine .mute (addLog_steps _ _) (addLog_steps _ _) (bodyScripts_good m) fun _ s1 _ => ?_
  unfold Recites
  rw [wp_bind]
  refine wp_mono (wp_and (fullBody_post m s1) ((fullBody_steps (R := Mute) m).run s1)) ?_ (fun _ _ h => Out.nothing h.2 id (bodyScripts_good m))
  rintro _ s2 ⟨⟨⟨files, hr, rfl⟩, _⟩, h2⟩
  obtain ⟨l, hl, hrec⟩ := sendBodyText_recites (env := env) (bodyText m files)
  have hnul : ∀ p ∈ l, cstr p = p := mem_flatten_nul hl (bodyText_nul hm files)
  have lift : ∀ P s3, Out (.one (cstrContents l ++ [(.cmd, endOfData)])) P s2 s3 → Out (bodyScripts m) P s1 s3 := by
    rintro P s3 ⟨e2, _, x2, rfl, b2, p2⟩
    obtain ⟨hlen, e1, x1, hmem⟩ := hr
    obtain ⟨e1', x1', u1⟩ := h2.uttered
    obtain rfl : e1 = e1' := List.append_cancel_left (x1.symm.trans x1')
    have hu : uttered (e1 ++ e2) = uttered e2 := by rw [uttered_append, u1]; rfl
    refine ⟨e1 ++ e2, cstrContents l ++ [(.cmd, endOfData)], by rw [x2, x1, List.append_assoc], ⟨files, ⟨⟨l, ?_, ?_⟩, ⟨l, hl, ?_⟩⟩, .inr ⟨hlen, fun p hp => ?_⟩⟩, ?_, fun hz => ?_⟩
    · rw [hl]
      exact bodyText_mime hlen
    · show cstrContents l ++ _ = _
      rw [cstrContents, map_cstr hnul fun d => ((.content, d) : Utterance)]
      rfl
    · show cstrContents l ++ _ = _
      rw [cstrContents, map_cstr hnul fun d => ((.content, d) : Utterance)]
      rfl
    · exact List.mem_append_left _ (hmem p hp)
    · rw [hu]; exact b2
    · rw [hu]; exact p2 fun h => hz (replyIn_right h)
  refine wp_mono (Recites.mono (Recites.seq (hrec s2) (.inl rfl) (sendBodyText_same _) (T := .one [(.cmd, endOfData)]) .one fun s3 _ => ?_) ?_ (fun _ h => h))
    (fun _ s3 h => lift _ s3 h) (fun _ s3 h => lift _ s3 h)
  · refine .mute (addLog_steps _ _) (addLog_steps _ _) .one fun _ s4 _ => ?_
    have e1 : cstr endOfData = endOfData := by decide
    rw [← e1]
    refine .first (.bind (sendPtrFb_first _ _ _) fun code => ?_)
    steps [sendQuit_steps]
  · rintro _ _ ⟨_, _, _, _, rfl, rfl, rfl, rfl⟩
    rfl

/-- Scripts of which nothing but a part was said. -/
def Scripts.sub (S : Scripts) : Scripts := fun h l => S h l ∧ (uttered h).Sublist l

theorem Scripts.Good.sub {S : Scripts} (h : S.Good) : S.sub.Good where
  pre := fun e _ _ he hl => ⟨h.pre _ _ _ he hl.1, by rw [uttered_append, he]; exact hl.2⟩
  post := fun e _ _ he hl => ⟨h.post _ _ _ he hl.1, by rw [uttered_append, he, List.append_nil]; exact hl.2⟩
  some := by
    obtain ⟨l, hl⟩ := h.some
    exact ⟨l, hl, List.nil_sublist _⟩

theorem Out.sub {S : Scripts} {P : Prop} {s s' : St} (h : Out S P s s') : Out S.sub P s s' := by
  obtain ⟨evs, l, h1, h2, h3, h4⟩ := h
  exact ⟨evs, l, h1, ⟨h2, h3⟩, h3, h4⟩

theorem Recites.sub {p : M α} {S : Scripts} {C : α → Prop} {s : St} (h : Recites env p S C s) : Recites env p S.sub C s :=
  wp_mono h (fun _ _ h => h.sub) (fun _ _ h => h.sub)

/-- Everything before the body, on an open session. -/
abbrev headScripts (m : Message) : Scripts :=
  .then (Scripts.then (fun _ t => ∃ f, f <+: senderForms m.from ∧ f ≠ [] ∧ t = cstrCmds f) (.one (rcpts (recipients m)))).sub
    (Scripts.one ((.cmd, dataCmd) :: cstrContents (headerLines m))).sub

theorem headScripts_good (m : Message) : (headScripts m).Good :=
  .then (.sub (.then (.of ⟨_, _, List.prefix_rfl, by simp [senderForms], rfl⟩) .one)) (.sub .one)

theorem setMailRecipients_same (m : Message) : Steps env SameUser (setMailRecipients m) := by
  have h1 : ∀ l c, Steps env SameUser (mailFromLoop c l) := by
    intro l
    induction l with
    | nil => intro c; unfold mailFromLoop; steps []
    | cons a l ih => intro c; unfold mailFromLoop; steps [addLog_steps, same_cmd, ih]
  have h2 : ∀ l, Steps env SameUser (recipientsLoop l) := by
    intro l
    induction l with
    | nil => unfold recipientsLoop; steps []
    | cons a l ih => unfold recipientsLoop; steps [arrElems_steps, addMailRecipients_same]
  unfold setMailRecipients
  steps [h1, h2]

theorem setMailHeaders_same (m : Message) : Steps env SameUser (setMailHeaders m) := by
  unfold setMailHeaders addressHeader addMailHeader
  steps [addLog_steps, same_cmd, same_content, arrElems_steps]

theorem setMailBody_same (m : Message) : Steps env SameUser (setMailBody m) := by
  unfold setMailBody
  steps [addLog_steps, same_cmd, sendBodyText_same, fullBody_steps, sendQuit_steps]

theorem sendMailConnected_recites {m : Message} (hm : NulFree m) (s : St) :
    Recites env (sendMailConnected m) (.then (headScripts m) (bodyScripts m)) (· = 0) s := by
  have rest : ∀ s, Recites env (sendMailRest m) (.then (Scripts.one ((.cmd, dataCmd) :: cstrContents (headerLines m))).sub (bodyScripts m)) (· = 0) s := by
    intro s
    unfold sendMailRest
    refine .seq (setMailHeaders_recites m s).sub (.inl rfl) (setMailHeaders_same m) (bodyScripts_good m) fun s1 _ => ?_
    refine Recites.mono (Recites.seq (setMailBody_recites hm s1) (.inl rfl) (setMailBody_same m) .none fun s2 _ => Recites.quiet ?_) ?_ (fun _ h => h)
    · steps [cleanup_steps]
    · rintro _ _ ⟨_, h2, _, _, rfl, rfl, h1, rfl, hu⟩
      rw [List.append_nil]
      exact (bodyScripts_good m).post h2 _ _ hu h1
  unfold sendMailConnected
  refine .mute (.modify fun _ => .same rfl) (.modify fun _ => ⟨rfl, rfl⟩) (.then (headScripts_good m) (bodyScripts_good m)) fun _ s1 _ => ?_
  refine Recites.mono (Recites.seq (setMailRecipients_recites m s1).sub (.inl rfl) (setMailRecipients_same m) (.then (.sub .one) (bodyScripts_good m)) fun s2 _ => rest s2) ?_ (fun _ h => h)
  rintro _ _ ⟨h1, _, l1, _, rfl, rfl, k1, h2, h3, l2, l3, rfl, rfl, k2, k3⟩
  exact ⟨h1 ++ h2, h3, l1 ++ l2, l3, by simp, by simp, ⟨h1, h2, l1, l2, rfl, rfl, k1, k2⟩, k3⟩

theorem sendMail_recites {m : Message} (hm : NulFree m) (s : St) (hc : ModestClient s.client) :
    Recites env (sendMail m) (.then (openingScripts s.client).sub (.then (headScripts m) (bodyScripts m))) (· = 0) s := by
  unfold sendMail Recites
  rw [wp_bind, wp_gets, wp_ite]
  refine ⟨fun h => ?_, fun h => ?_⟩
  · refine Recites.mono (sendMailConnected_recites hm s) ?_ (fun _ h => h)
    intro e l k
    exact ⟨[], e, [], l, rfl, rfl, ⟨⟨[], by unfold OpeningScript; rw [if_pos h], rfl⟩, List.nil_sublist _⟩, k⟩
  · refine Recites.seq (establish_recites s hc (by simpa using h)).sub (.inl rfl) ?_ (.then (headScripts_good m) (bodyScripts_good m)) fun s1 _ =>
      sendMailConnected_recites hm s1
    unfold establish establishGreeted establishForced establishOpportunistic upgradeToSecureConnection
      getServerSecureIdentification sendServerIdentification setKeepUsingBase authenticateIfNeeded authenticateClient authPlainM authLoginM authXOAuth2M
    have c1 : ∀ e t, Steps env SameUser (sendRawFb startTlsCmd e t) := fun e t => sendRawFb_steps (fun _ _ _ => ⟨rfl, rfl⟩) e t
    have c2 : ∀ e t, Steps env SameUser (identify e t) := fun e t => identify_steps (fun _ _ _ => ⟨rfl, rfl⟩) e t
    steps [addLog_steps, initializeSession_steps, checkServerGreetings_steps, c2, startTLSNegotiation_steps, c1, same_cmd, Steps.modify]
    exact Opening.keep _

/-- The scripts in the words of the specification. -/
theorem sendMail_follows_exactly {m : Message} (hm : NulFree m) (s : St) (hc : ModestClient s.client) :
    ∃ evs before rest files, (sendMail m env s).2.hist = s.hist ++ evs ∧ ScriptBeforeBody s.client m before ∧ ScriptOfBody m files rest ∧
      (uttered evs).Sublist (before ++ rest) ∧ ((uttered evs).Sublist before ∨ FilesRead m files evs) ∧
      (¬ ReplyIn evs 0 → uttered evs <+: before ++ rest ∧ (∀ s', sendMail m env s = (.ok 0, s') → uttered evs = before ++ rest)) ∧
      BodyExactly m files rest := by
  have key : ∀ P s', Out (.then (openingScripts s.client).sub (.then (headScripts m) (bodyScripts m))) P s s' →
      ∃ evs before rest files, s'.hist = s.hist ++ evs ∧ ScriptBeforeBody s.client m before ∧ ScriptOfBody m files rest ∧
        (uttered evs).Sublist (before ++ rest) ∧ ((uttered evs).Sublist before ∨ FilesRead m files evs) ∧
        (¬ ReplyIn evs 0 → uttered evs <+: before ++ rest ∧ (P → uttered evs = before ++ rest)) ∧ BodyExactly m files rest := by
    rintro P s' ⟨_, _, hx, ⟨e1, _, _, _, rfl, rfl, ⟨⟨o, ho, rfl⟩, b1⟩, _, e5, _, l5, rfl, rfl,
      ⟨e2, e3, _, _, rfl, rfl, ⟨⟨_, _, _, _, rfl, rfl, ⟨f, hf, hne, rfl⟩, rfl⟩, b2⟩, rfl, b3⟩, files, ⟨hb, hx'⟩, hfiles⟩, hsub, hz⟩
    have n1 : ∀ d ∈ f, cstr d = d := fun d hd => senderForms_nul (hm.addresses _ (by simp)) d (hf.subset hd)
    have n2 : ∀ d ∈ (recipients m).map rcptTo, cstr d = d := by
      intro d hd
      obtain ⟨a, ha, rfl⟩ := List.mem_map.mp hd
      exact cstr_eq_self (by have := (hm.addresses a (by simp [ha])).1; simp [rcptTo, this])
    have n3 : ∀ d ∈ headerLines m, cstr d = d := mem_flatten_nul (headerLines_flatten m) (headerText_nul hm)
    have e1 : cstrCmds f = asCmds f := map_cstr n1 _
    have e2 : rcpts (recipients m) = asCmds ((recipients m).map fun a => b!"RCPT TO: <" ++ a.email ++ b!">\r\n") := by
      rw [rcpts, cstrCmds, map_cstr n2]
      rfl
    have e3 : cstrContents (headerLines m) = (headerLines m).map (.content, ·) := map_cstr n3 _
    rw [e1, e2, e3] at hsub hz
    rw [e1, e2] at b2
    rw [e3] at b3
    refine ⟨_, asCmds o ++ (asCmds f ++ asCmds ((recipients m).map fun a => b!"RCPT TO: <" ++ a.email ++ b!">\r\n") ++
        ((.cmd, dataCmd) :: (headerLines m).map (.content, ·))), l5, files, hx, ⟨o, f, headerLines m, ho, hf, hne, headerLines_flatten m, ?_⟩, hb, ?_, ?_, fun h => ?_, hx'⟩
    · simp [dataCmd, asCmds]
    · rw [List.append_assoc (asCmds o)]; exact hsub
    · rcases hfiles with h | h
      · refine .inl ?_
        simp only [uttered_append, h, List.append_nil] at b2 ⊢
        exact b1.append (b2.append b3)
      · refine .inr ⟨h.1, fun p hp => ?_⟩
        have := h.2 p hp
        simp [this]
    · rw [List.append_assoc (asCmds o)]; exact hz h
  have h := sendMail_recites (env := env) hm s hc
  unfold Recites wp at h
  cases hr : sendMail m env s with
  | mk r s' =>
    rw [hr] at h
    cases r with
    | stop e =>
      obtain ⟨evs, before, rest, files, h1, h2, h3, h4, h5, h6, h7⟩ := key _ _ h
      exact ⟨evs, before, rest, files, h1, h2, h3, h4, h5, fun hz => ⟨(h6 hz).1, fun _ h => by simp at h⟩, h7⟩
    | ok c =>
      obtain ⟨evs, before, rest, files, h1, h2, h3, h4, h5, h6, h7⟩ := key _ _ h
      exact ⟨evs, before, rest, files, h1, h2, h3, h4, h5, fun hz => ⟨(h6 hz).1, fun _ h => (h6 hz).2 (by simpa using (congrArg Prod.fst h))⟩, h7⟩

theorem sendMail_follows {m : Message} (hm : NulFree m) (s : St) (hc : ModestClient s.client) :
    ∃ evs before rest files, (sendMail m env s).2.hist = s.hist ++ evs ∧ ScriptBeforeBody s.client m before ∧ ScriptOfBody m files rest ∧
      (uttered evs).Sublist (before ++ rest) ∧ ((uttered evs).Sublist before ∨ FilesRead m files evs) ∧
      (¬ ReplyIn evs 0 → uttered evs <+: before ++ rest ∧ (∀ s', sendMail m env s = (.ok 0, s') → uttered evs = before ++ rest)) := by
  obtain ⟨evs, before, rest, files, h1, h2, h3, h4, h5, h6, _⟩ := sendMail_follows_exactly (env := env) hm s hc
  exact ⟨evs, before, rest, files, h1, h2, h3, h4, h5, h6⟩

end Verif.Proofs
