import Verif.Proofs.Safe
import Verif.Proofs.Welcome
import Verif.Proofs.Leaks
import Verif.Proofs.TlsFreed
import Verif.Proofs.Calls
import Verif.Spec.Owing
/-!
# Channels on which a reply is missing
-/
namespace Verif.Proofs
open Verif Verif.Model Verif.Spec

variable {env : Env} {h : Hist} {e : Ev} {c : Chan} {o : Option Chan} {s : St}

theorem owes_snoc (ho : OwesReply c (h ++ [e])) (he : ∀ d r, e ≠ .send .cmd c d r) : OwesReply c h := by
  obtain ⟨x, d, r, y, heq, h1, h2⟩ := ho
  rcases snoc_split heq with ⟨-, rfl, -⟩ | ⟨b, hb, rfl⟩
  · exact absurd rfl (he d r)
  · exact ⟨x, d, r, b, hb, fun d' hm => h1 d' (by simp [hm]), fun v hv hm => h2 v hv (by simp [hm])⟩

/-- Something was received after the last command. -/
theorem not_owes_received {evs : Hist} {d' : Bytes} (hs : ∀ e ∈ evs, ¬ IsSend e) (hr : .recv c (.data d') ∈ evs) : ¬ OwesReply c (h ++ evs) := by
  rintro ⟨x, d, r, y, heq, h1, -⟩
  rcases List.append_eq_append_iff.mp heq with ⟨a, -, ha⟩ | ⟨a, ha, hb⟩
  · refine hs (.send .cmd c d r) (by rw [ha]; simp) trivial
  · cases a with
    | nil =>
      rw [List.nil_append] at hb
      exact hs (.send .cmd c d r) (by rw [← hb]; simp) trivial
    | cons e a =>
      rw [List.cons_append] at hb
      injection hb with hb1 hb2
      exact h1 d' (by rw [hb2]; simp [hr])

/-- A number that was just handed out. -/
theorem not_owes_opened {v : Nat} : ¬ OwesReply (.raw v) (h ++ [.socket (.val v)]) := by
  rintro ⟨x, d, r, y, heq, -, h2⟩
  rcases snoc_split heq with ⟨-, h', -⟩ | ⟨b, -, rfl⟩
  · simp at h'
  · exact h2 v rfl (by simp)

theorem not_owes_never (hn : ∀ d r, .send .cmd c d r ∉ h) : ¬ OwesReply c h := by
  rintro ⟨x, d, r, y, rfl, -⟩
  exact hn d r (by simp)

/-- Everything so far was sent in turn. -/
def InTurn (h : Hist) : Prop := ∀ pre e post, h = pre ++ e :: post → SpeaksInTurn pre e

theorem InTurn.snoc (hm : InTurn h) (he : SpeaksInTurn h e) : InTurn (h ++ [e]) := by
  intro pre e' post heq
  rcases snoc_split heq with ⟨rfl, rfl, -⟩ | ⟨b, hb, -⟩
  · exact he
  · exact hm pre e' b hb

/-- The numbers of the TLS connections used so far are smaller than the length of the history. -/
def OldIds (h : Hist) : Prop := ∀ id fd d r, .send .cmd (.tls id fd) d r ∈ h → id < h.length

theorem OldIds.snoc (hm : OldIds h) (he : ∀ id fd d r, e = .send .cmd (.tls id fd) d r → id < h.length) : OldIds (h ++ [e]) := by
  intro id fd d r hin
  rw [List.length_append]
  rcases List.mem_append.mp hin with hin | hin
  · have := hm id fd d r hin
    omega
  · rw [List.mem_singleton] at hin
    have := he id fd d r hin.symm
    omega

/-- What holds while a connection is used, when a reply is missing at most on the channel `o`. -/
structure Owing (o : Option Chan) (s : St) : Prop where
  ok : InTurn s.hist
  ids : OldIds s.hist
  sock : o ≠ some (.raw s.client.sock) → s.client.sock = 0 ∨ ¬ OwesReply (.raw s.client.sock) s.hist
  bio : ∀ b, s.client.bio = some b → b.id < s.hist.length ∧ (o ≠ some (.tls b.id b.fd) → ¬ OwesReply (.tls b.id b.fd) s.hist)
  plain : s.client.kind = .smtp → s.client.bio = none

/-- The same between the calls. -/
structure Rested (s : St) : Prop where
  ok : InTurn s.hist
  ids : OldIds s.hist
  sock : s.client.isConnected = true → s.client.sock = 0 ∨ ¬ OwesReply (.raw s.client.sock) s.hist
  bio : ∀ b, s.client.bio = some b → b.id < s.hist.length ∧ ¬ OwesReply (.tls b.id b.fd) s.hist
  plain : s.client.kind = .smtp → s.client.bio = none

theorem Owing.rest (h : Owing none s) : Rested s := ⟨h.ok, h.ids, fun _ => h.sock (by simp), fun b hb => ⟨(h.bio b hb).1, (h.bio b hb).2 (by simp)⟩, h.plain⟩

/-- Events that are not sent commands. -/
theorem Owing.event (h : Owing o s) (he : SpeaksInTurn s.hist e)
    (hc : ∀ c d r, e ≠ .send .cmd c d r) : Owing o (St.snoc s e) where
  ok := h.ok.snoc he
  ids := h.ids.snoc fun _ _ _ _ h => absurd h (hc _ _ _)
  sock := fun ho => (h.sock ho).elim .inl fun h => .inr fun h' => h (owes_snoc h' (hc _))
  bio := fun b hb => by
    refine ⟨?_, fun ho h' => (h.bio b hb).2 ho (owes_snoc h' (hc _))⟩
    have := (h.bio b hb).1
    simp only [St.snoc, List.length_append]
    omega
  plain := h.plain

theorem Owing.note (h : Owing o s) (he : ∀ k c d r, e ≠ .send k c d r) : Owing o (St.snoc s e) :=
  h.event (by
    unfold SpeaksInTurn
    split
    · exact absurd rfl (he _ _ _ _)
    · trivial) (fun _ _ _ => he _ _ _ _)

/-- A command. -/
theorem Owing.command (h : Owing none s) {d : Bytes} {r : SendRes} (he : SpeaksInTurn s.hist (.send .cmd c d r))
    (hi : ∀ id fd, c = .tls id fd → id < s.hist.length) : Owing (some c) (St.snoc s (.send .cmd c d r)) where
  ok := h.ok.snoc he
  ids := h.ids.snoc fun id fd d r e => by
    injection e with _ e _ _
    exact hi id fd e
  sock := fun ho => (h.sock (by simp)).elim .inl fun h => .inr fun h' => h (owes_snoc h' fun d r e => by
    injection e with _ e _ _
    exact ho (congrArg some e))
  bio := fun b hb => by
    refine ⟨?_, fun ho h' => (h.bio b hb).2 (by simp) (owes_snoc h' fun d r e => ?_)⟩
    · have := (h.bio b hb).1
      simp only [St.snoc, List.length_append]
      omega
    · injection e with _ e _ _
      exact ho (congrArg some e)
  plain := h.plain

theorem Owing.any (h : Owing none s) : Owing o s := ⟨h.ok, h.ids, fun _ => h.sock (by simp), fun b hb => ⟨(h.bio b hb).1, fun _ => (h.bio b hb).2 (by simp)⟩, h.plain⟩

theorem Owing.same (h : Owing o s) {cl : Client} {m : List SessionOp} (hc : SameConn s.client cl) : Owing o { s with client := cl, mem := m } := by
  unfold SameConn at hc
  rw [hc]
  exact ⟨h.ok, h.ids, h.sock, h.bio, h.plain⟩

theorem Rested.event {s : St} {e : Ev} (h : Rested s) (he : ∀ k c d r, e ≠ .send k c d r) : Rested (St.snoc s e) where
  ok := h.ok.snoc (by
    unfold SpeaksInTurn
    split
    · exact absurd rfl (he _ _ _ _)
    · trivial)
  ids := h.ids.snoc fun _ _ _ _ h => absurd h (he _ _ _ _)
  sock := fun hc => (h.sock hc).elim .inl fun h => .inr fun h' => h (owes_snoc h' (fun _ _ => he _ _ _ _))
  bio := fun b hb => by
    refine ⟨?_, fun h' => (h.bio b hb).2 (owes_snoc h' (fun _ _ => he _ _ _ _))⟩
    have := (h.bio b hb).1
    simp only [St.snoc, List.length_append]
    omega
  plain := h.plain

instance owing_cleaning : Cleaning (Pres (Owing o)) where
  refl := fun _ h => h
  trans := fun h h' x => h' (h x)
  log := fun _ _ _ _ _ _ _ h => h.same rfl
  errno := fun _ _ h => h.same (m := _) rfl
  resp := fun _ _ h => h.same rfl
  auth := fun _ _ h => h.same rfl
  fcntlGet := fun _ _ _ h => h.note nofun
  fcntlSet := fun _ _ _ _ h => h.note nofun
  select := fun _ _ _ h => h.note nofun
  sockopt := fun _ _ _ h => h.note nofun
  resolve := fun _ _ _ h => h.note nofun
  connect := fun _ _ _ _ h => h.note nofun
  sleep := fun _ h => h.note nofun
  recv := fun _ _ _ h => h.note nofun
  disconnected := fun _ h => ⟨h.ok, h.ids, h.sock, h.bio, h.plain⟩
  ctx := fun _ _ h => ⟨h.ok, h.ids, h.sock, h.bio, h.plain⟩
  noBio := fun _ h => ⟨h.ok, h.ids, h.sock, nofun, fun _ => rfl⟩
  noSock := fun _ h => ⟨h.ok, h.ids, fun _ => .inl rfl, h.bio, h.plain⟩
  close := fun _ _ h => h.note nofun
  bioFree := fun _ _ h => h.note nofun
  quit := fun s c r h => h.event (.inr (.inl rfl)) nofun

/-- After `cleanup` no reply is missing on the channels of the client: there are none. -/
theorem cleanup_pays (s : St) (hs : Owing o s) : wp env cleanup (fun _ => Owing none) (fun _ s' => InTurn s'.hist) s := by
  have kind := (cleanup_steps (env := env) (R := fun s s' : St => s'.client.kind = s.client.kind) (hR := kind_anything.toCleaning.toEnding)).run s
  have both := wp_and (wp_and (cleanup_noSock (env := env) s) kind) (Pres.use cleanup_steps hs)
  by_cases hk : s.client.kind = .smtp
  · refine wp_mono both (fun _ s' h => ?_) (fun _ _ h => h.2.ok)
    have hb := h.2.plain (h.1.2.trans hk)
    exact ⟨h.2.ok, h.2.ids, fun _ => .inl h.1.1, fun b h' => by simp [hb] at h', fun _ => hb⟩
  · refine wp_mono (wp_and both (cleanup_noBio s hk)) (fun _ s' h => ?_) (fun _ _ h => h.1.2.ok)
    exact ⟨h.1.2.ok, h.1.2.ids, fun _ => .inl h.1.1.1, fun b h' => by simp [h.2] at h', fun _ => h.2⟩

/-- A reply was read. -/
theorem Owing.replied {code : Int} {s' : St} (h : Owing (some c) s') (hg : GotReply c code s s') (hc : code ≠ -1) : Owing none s' := by
  obtain ⟨-, hg⟩ := hg
  obtain ⟨evs, he, ho⟩ := hg hc
  obtain ⟨w, p, hr, -, -⟩ := ho.once
  have : ∃ d, .recv c (.data d) ∈ evs := by
    have hne : heard evs ≠ [] := fun h => by
      have := ho.code.1
      simp [h] at this
    unfold heard at hne
    rw [Ne, List.flatMap_eq_nil_iff] at hne
    simp only [Classical.not_forall] at hne
    obtain ⟨e, hm, he⟩ := hne
    unfold hear at he
    split at he
    · rename_i c' d
      have hin : (c', RecvRes.data d) ∈ readsOf evs := List.mem_filterMap.mpr ⟨_, hm, rfl⟩
      rw [hr, List.mem_map] at hin
      obtain ⟨x, -, hx⟩ := hin
      injection hx with h1 _
      exact ⟨d, h1 ▸ hm⟩
    · exact absurd rfl he
  obtain ⟨d, hd⟩ := this
  have key : ¬ OwesReply c s'.hist := he ▸ not_owes_received ho.silent hd
  refine ⟨h.ok, h.ids, fun _ => ?_, fun b hb => ⟨(h.bio b hb).1, fun _ => ?_⟩, h.plain⟩
  · by_cases h' : some c = some (.raw s'.client.sock)
    · injection h' with h'
      exact .inr (h' ▸ key)
    · exact h.sock h'
  · by_cases h' : some c = some (.tls b.id b.fd)
    · injection h' with h'
      exact h' ▸ key
    · exact (h.bio b hb).2 h'

theorem getRawReply_pays (s : St) (hs : Owing (some (.raw s.client.sock)) s) :
    wp env getRawReply (fun code s' => Owing (some (.raw s.client.sock)) s' ∧ (code ≠ -1 → Owing none s')) (fun _ s' => InTurn s'.hist) s :=
  wp_mono (wp_and (getRawReply_took s) (Pres.use getRawReply_steps hs)) (fun _ _ h => ⟨h.2, h.2.replied h.1⟩) (fun _ _ h => h.2.ok)

theorem getTlsReply_pays {b : Bio} (s : St) (hb : s.client.bio = some b) (hs : Owing (some (.tls b.id b.fd)) s) :
    wp env getTlsReply (fun code s' => Owing (some (.tls b.id b.fd)) s' ∧ (code ≠ -1 → Owing none s')) (fun _ s' => InTurn s'.hist) s :=
  wp_mono (wp_and (tlsReply_took s hb) (Pres.use getTlsReply_steps hs)) (fun _ _ h => ⟨h.2, h.2.replied h.1⟩) (fun _ _ h => h.2.ok)

/-- The end of a command with reply. -/
theorem reply_pays {m : M Int} {t : Int} (s : St)
    (hm : wp env m (fun code s' => Owing o s' ∧ (code ≠ -1 → Owing none s')) (fun _ s' => InTurn s'.hist) s) :
    wp env (do
      let code ← m
      if code ≠ -1 then pure code else do
        cleanup
        pure t) (fun _ => Owing none) (fun _ s' => InTurn s'.hist) s := by
  rw [wp_bind]
  refine wp_mono hm (fun code s1 h1 => ?_) (fun _ _ h => h)
  rw [wp_ite]
  refine ⟨fun h => h1.2 h, fun _ => ?_⟩
  rw [wp_bind]
  exact wp_mono (cleanup_pays s1 h1.1) (fun _ _ h => h) (fun _ _ h => h)

/-- Where the program stopped. -/
abbrev InTurnIn (s : St) : Prop := InTurn s.hist

/-- What follows a write. -/
theorem written_pays {P : Int → St → Prop} (e : Int) (r : SendRes) (s : St) (ho : Owing o s) (hP : P 0 s) (hn : ∀ c s, Owing none s → P c s) (er : M Int)
    (her : Steps env (Pres (Owing o)) er) :
    wp env (match r with
      | .fail _ => do
        let n ← er
        setErrNo n
        cleanup
        pure e
      | _ => pure 0) P (fun _ => InTurnIn) s := by
  cases r with
  | fail n =>
    dsimp only
    unfold setErrNo
    rw [wp_bind]
    refine wp_mono (Pres.use her ho) (fun n s1 h1 => ?_) (fun _ _ h => h.ok)
    rw [wp_bind, wp_modify, wp_bind]
    exact wp_mono (cleanup_pays _ (h1.same (m := s1.mem) rfl)) (fun _ _ h => hn _ _ h) (fun _ _ h => h)
  | sent n => exact hP
  | never => exact hP

theorem Owing.turnRaw (h : Owing none s) (k : SendKind) (d : Bytes) (r : SendRes) : SpeaksInTurn s.hist (.send k (.raw s.client.sock) d r) :=
  (h.sock (by simp)).elim (fun h => .inl (by rw [h])) fun h => .inr (.inr h)

theorem Owing.turnTls {b : Bio} (h : Owing none s) (hb : s.client.bio = some b) (k : SendKind) (d : Bytes) (r : SendRes) :
    SpeaksInTurn s.hist (.send k (.tls b.id b.fd) d r) := .inr (.inr ((h.bio b hb).2 (by simp)))

/-- A command in clear. -/
theorem sendRaw_cmd_pays (d : Bytes) (e : Int) (s : St) (hs : Owing none s) :
    wp env (sendRaw .cmd d e) (fun code s' => (code ≠ 0 → Owing none s') ∧ Owing (some (.raw s'.client.sock)) s') (fun _ => InTurnIn) s := by
  unfold sendRaw sendRawWith
  rw [wp_bind, wp_gets, wp_bind]
  have h1 : ∀ r, Owing (some (.raw s.client.sock)) (St.snoc s (.send .cmd (.raw s.client.sock) (cstr d) r)) := fun r => hs.command (hs.turnRaw _ _ _) nofun
  refine wp_mono (sysSend_out _ _ _ s) ?_ (fun _ _ h => h ▸ (h1 _).ok)
  rintro r s1 ⟨-, rfl⟩
  have := written_pays (env := env) (P := fun code s' => (code ≠ 0 → Owing none s') ∧ Owing (some (.raw s'.client.sock)) s') e r _ (h1 r) ⟨nofun, h1 r⟩
    (fun _ _ h => ⟨fun _ => h, h.any⟩)
  cases r with
  | fail n => exact this (pure n) (Steps.pure n)
  | sent n => exact this (pure 0) (Steps.pure 0)
  | never => exact this (pure 0) (Steps.pure 0)

/-- Content in clear, and QUIT. -/
theorem sendRaw_pays {k : SendKind} (hk : k ≠ .cmd) (d : Bytes) (e : Int) : Safe env (Owing none) InTurnIn (sendRaw k d e) := by
  constructor
  intro s hs
  unfold sendRaw sendRawWith
  rw [wp_bind, wp_gets, wp_bind]
  have h1 : ∀ r, Owing none (St.snoc s (.send k (.raw s.client.sock) (cstr d) r)) := fun r => hs.event (hs.turnRaw _ _ _) fun _ _ _ h => by
    injection h with h _ _ _
    exact hk h
  refine wp_mono (sysSend_out _ _ _ s) ?_ (fun _ _ h => h ▸ (h1 _).ok)
  rintro r s1 ⟨-, rfl⟩
  have := written_pays (env := env) (P := fun _ => Owing none) e r _ (h1 r) (h1 r) (fun _ _ h => h)
  cases r with
  | fail n => exact this (pure n) (Steps.pure n)
  | sent n => exact this (pure 0) (Steps.pure 0)
  | never => exact this (pure 0) (Steps.pure 0)

theorem noBio_pays (e : Int) (s : St) (hs : Owing none s) :
    wp env (do
      let n ← M.ask' (·.tlsErr)
      setErrNo n
      cleanup
      pure e) (fun _ => Owing none) (fun _ => InTurnIn) s := by
  rw [wp_bind, wp_ask']
  unfold setErrNo
  rw [wp_bind, wp_modify, wp_bind]
  exact wp_mono (cleanup_pays _ (hs.same (m := s.mem) rfl)) (fun _ _ h => h) (fun _ _ h => h)

/-- A command through TLS. -/
theorem sendBio_cmd_pays (d : Bytes) (e : Int) (s : St) (hs : Owing none s) :
    wp env (sendBioWith cleanup .cmd d e) (fun code s' => Owing none s' ∨ code = 0 ∧ ∃ b, s'.client.bio = some b ∧ Owing (some (.tls b.id b.fd)) s')
      (fun _ => InTurnIn) s := by
  unfold sendBioWith
  rw [wp_bind, wp_gets]
  cases hb : s.client.bio with
  | none => exact wp_mono (noBio_pays e s hs) (fun _ _ h => .inl h) (fun _ _ h => h)
  | some b =>
    dsimp only
    rw [wp_bind]
    have h1 : ∀ r, Owing (some (.tls b.id b.fd)) (St.snoc s (.send .cmd (.tls b.id b.fd) (cstr d) r)) := fun r => hs.command (hs.turnTls hb _ _ _) fun id fd h => by
      injection h with h _
      exact h ▸ (hs.bio b hb).1
    refine wp_mono (sysSend_out _ _ _ s) ?_ (fun _ _ h => h ▸ (h1 _).ok)
    rintro r s1 ⟨-, rfl⟩
    have := written_pays (env := env) (P := fun code s' => Owing none s' ∨ code = 0 ∧ ∃ b, s'.client.bio = some b ∧ Owing (some (.tls b.id b.fd)) s') e r _ (h1 r)
      (.inr ⟨rfl, b, hb, h1 r⟩) (fun _ _ h => .inl h) (M.ask' (·.tlsErr)) (Steps.ask' _)
    cases r <;> exact this

theorem sendBio_pays {k : SendKind} (hk : k ≠ .cmd) (d : Bytes) (e : Int) : Safe env (Owing none) InTurnIn (sendBioWith cleanup k d e) := by
  constructor
  intro s hs
  unfold sendBioWith
  rw [wp_bind, wp_gets]
  cases hb : s.client.bio with
  | none => exact noBio_pays e s hs
  | some b =>
    dsimp only
    rw [wp_bind]
    have h1 : ∀ r, Owing none (St.snoc s (.send k (.tls b.id b.fd) (cstr d) r)) := fun r => hs.event (hs.turnTls hb _ _ _) fun _ _ _ h => by
      injection h with h _ _ _
      exact hk h
    refine wp_mono (sysSend_out _ _ _ s) ?_ (fun _ _ h => h ▸ (h1 _).ok)
    rintro r s1 ⟨-, rfl⟩
    have := written_pays (env := env) (P := fun _ => Owing none) e r _ (h1 r) (h1 r) (fun _ _ h => h) (M.ask' (·.tlsErr)) (Steps.ask' _)
    cases r <;> exact this

theorem sendPtr_pays {k : SendKind} (hk : k ≠ .cmd) (d : Bytes) (e : Int) : Safe env (Owing none) InTurnIn (sendPtr k d e) := by
  unfold sendPtr sendPtrWith
  exact Safe.bind (Safe.gets _) fun _ => Safe.bind (Safe.gets _) fun _ => Safe.ite (sendRaw_pays hk d e) (sendBio_pays hk d e)

instance safe_owing : SafeTalk (Owing none) InTurnIn :=
  let rd : SafeRead (Owing none) InTurnIn :=
    { weak := fun _ h => h.ok
      client := fun s c m hc h => h.same hc
      sleep := fun s h => h.note nofun
      readFile := fun s n r h => h.note nofun
      rawReply := fun env => ⟨fun s h => wp_mono (Pres.use getRawReply_steps h) (fun _ _ h => h) (fun _ _ h => h.ok)⟩
      recvTls := fun s b r hb h => h.note nofun
      connected := fun s h => ⟨h.ok, h.ids, h.sock, h.bio, h.plain⟩ }
  { rd with
    cleanup := fun env => ⟨cleanup_pays⟩
    content := fun env d e => sendPtr_pays (by decide) d e
    quit := fun env => by
      have : SafeRead (Owing none) InTurnIn := rd
      exact Safe.bind (sf_addLog _ _) fun _ => sendPtr_pays (k := .quit) (by decide) _ _
    rawFb := fun env d e t => ⟨fun s hs => by
      unfold sendRawFb
      rw [wp_bind]
      refine wp_mono (sendRaw_cmd_pays d e s hs) (fun code s1 h1 => ?_) (fun _ _ h => h)
      rw [wp_ite]
      exact ⟨fun h => h1.1 h, fun _ => reply_pays s1 (getRawReply_pays s1 h1.2)⟩⟩
    tlsFb := fun env d e t s hs _ => by
      unfold sendTlsFb
      rw [wp_bind]
      refine wp_mono (sendBio_cmd_pays d e s hs) (fun code s1 h1 => ?_) (fun _ _ h => h)
      rw [wp_ite]
      refine ⟨fun h => ?_, fun _ => ?_⟩
      · rcases h1 with h1 | h1
        · exact h1
        · exact absurd h1.1 h
      · rcases h1 with h1 | ⟨-, b, hb, h1⟩
        · exact reply_pays s1 (wp_mono (Pres.use getTlsReply_steps h1) (fun _ _ h => ⟨h, fun _ => h⟩) (fun _ _ h => h.ok))
        · exact reply_pays s1 (getTlsReply_pays s1 hb h1) }

end Verif.Proofs
