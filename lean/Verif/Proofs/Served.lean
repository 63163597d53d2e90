import Verif.Proofs.Close
import Verif.Proofs.Tls
import Verif.Proofs.Private
import Verif.Proofs.Calls
import Verif.Proofs.Values
import Verif.Spec.Served
/-!
# Where everything is sent
-/
namespace Verif.Proofs
open Verif Verif.Model Verif.Spec

variable {env : Env} {C : Hist → Bytes → Nat → Prop} {h0 : Hist}

/-- The descriptor is 0 or an open connection. -/
def Led (C : Hist → Bytes → Nat → Prop) (h : Hist) (fd : Int) : Prop := fd = 0 ∨ Served C h fd

/-- Everything sent after `h0` went to 0 or to an open connection. -/
def SentLed (C : Hist → Bytes → Nat → Prop) (h0 h : Hist) : Prop :=
  ∃ evs, h = h0 ++ evs ∧ ∀ pre k c d r post, evs = pre ++ .send k c d r :: post → Led C (h0 ++ pre) c.fd

theorem Led.append {h evs : Hist} {fd : Int} (hl : Led C h fd) (he : .close fd ∉ evs) : Led C (h ++ evs) fd := by
  rcases hl with hl | ⟨a, o, b, v, n, p, rfl, hc, hv, ho, hb⟩
  · exact .inl hl
  · exact .inr ⟨a, o, b ++ evs, v, n, p, by simp, hc, hv, ho, by simp [hb, he]⟩

theorem sentLed_same : SentLed C h0 h0 := ⟨[], by simp, fun pre k c d r post h => by simp at h⟩

theorem SentLed.append {h evs : Hist} (hs : SentLed C h0 h) (he : ∀ k c d r, .send k c d r ∉ evs) : SentLed C h0 (h ++ evs) := by
  obtain ⟨old, rfl, hold⟩ := hs
  refine ⟨old ++ evs, by simp, fun pre k c d r post heq => ?_⟩
  rcases List.append_eq_append_iff.mp heq with ⟨x, rfl, hx⟩ | ⟨x, rfl, hx⟩
  · exact absurd (by rw [hx]; simp) (he k c d r)
  · cases x with
    | nil => exact absurd (by rw [← List.nil_append evs, ← hx]; simp) (he k c d r)
    | cons y x =>
      simp only [List.cons_append, List.cons.injEq] at hx
      obtain ⟨rfl, hx⟩ := hx
      exact hold _ k c d r x rfl

theorem SentLed.send {h : Hist} {k : SendKind} {c : Chan} {d : Bytes} {r : SendRes} (hs : SentLed C h0 h) (hl : Led C h c.fd) :
    SentLed C h0 (h ++ [.send k c d r]) := by
  obtain ⟨old, rfl, hold⟩ := hs
  refine ⟨old ++ [.send k c d r], by simp, fun pre k' c' d' r' post heq => ?_⟩
  rcases List.eq_nil_or_concat post with rfl | ⟨post', x, rfl⟩
  · obtain ⟨h1, h2⟩ := List.append_inj' heq rfl
    subst h1
    have : c = c' := by
      have := List.cons.inj h2
      injection this.1
    rw [← this]
    exact hl
  · rw [List.concat_eq_append, ← List.cons_append, ← List.append_assoc] at heq
    exact hold pre k' c' d' r' post' (List.append_inj' heq rfl).1

/-- What holds while a connection is used. -/
structure Leading (C : Hist → Bytes → Nat → Prop) (h0 : Hist) (s : St) : Prop where
  sent : SentLed C h0 s.hist
  sock : Led C s.hist s.client.sock
  bio : ∀ b, s.client.bio = some b → Led C s.hist b.fd
  plain : s.client.kind = .smtp → s.client.bio = none

/-- What holds between calls. -/
structure Resting (C : Hist → Bytes → Nat → Prop) (h0 : Hist) (s : St) : Prop where
  sent : SentLed C h0 s.hist
  sock : s.client.isConnected = true → Led C s.hist s.client.sock
  bio : ∀ b, s.client.bio = some b → Led C s.hist b.fd
  plain : s.client.kind = .smtp → s.client.bio = none

theorem Leading.rest {s : St} (h : Leading C h0 s) : Resting C h0 s := ⟨h.sent, fun _ => h.sock, h.bio, h.plain⟩

theorem Leading.grow {s : St} {c : Client} {m : List SessionOp} {evs : Hist} (h : Leading C h0 s)
    (hc : c.sock = s.client.sock ∧ c.bio = s.client.bio ∧ c.kind = s.client.kind)
    (he : ∀ fd, .close fd ∉ evs) (hs : ∀ k c d r, .send k c d r ∉ evs) : Leading C h0 { client := c, hist := s.hist ++ evs, mem := m } :=
  ⟨h.sent.append hs, by show Led C _ c.sock; rw [hc.1]; exact h.sock.append (he _), fun b hb => (h.bio b (hc.2.1 ▸ hb)).append (he _),
    fun hk => by show c.bio = none; rw [hc.2.1]; exact h.plain (hc.2.2 ▸ hk)⟩

theorem Leading.event {s : St} {e : Ev} (h : Leading C h0 s) (he : ∀ fd, .close fd ≠ e) (hs : ∀ k c d r, .send k c d r ≠ e) :
    Leading C h0 (St.snoc s e) :=
  h.grow (m := s.mem) ⟨rfl, rfl, rfl⟩ (fun fd hm => he fd (List.mem_singleton.mp hm)) (fun k c d r hm => hs k c d r (List.mem_singleton.mp hm))

theorem closing_noSend (c : Client) : ∀ k ch d r, .send k ch d r ∉ closingEvs c := by
  intro k ch d r hm
  unfold closingEvs at hm
  rcases List.mem_append.mp hm with hm | hm
  · split at hm
    · simp at hm
    · split at hm <;> simp at hm
  · split at hm <;> simp at hm

theorem closedClient_bio' (c : Client) (h : c.kind = .smtp → c.bio = none) : (closedClient c).bio = none := by
  unfold closedClient
  split
  · next hk => exact h hk
  · rfl

theorem leading_guard : GuardInv (fun _ _ => True) (Leading C h0) where
  quitOk := trivial
  client := fun s c m hc h => by
    unfold SameConn at hc
    have := h.grow (c := c) (m := m) (evs := []) (by rw [hc]; exact ⟨rfl, rfl, rfl⟩) (by simp) (by simp)
    simpa using this
  quiet := fun s e he h => h.event (by rintro fd rfl; exact he) (by rintro k c d r rfl; exact he)
  recvRaw := fun s r h => h.event nofun nofun
  recvTls := fun s b r hb h => h.event nofun nofun
  send := by
    intro s k c d r hs h
    have hl : Led C s.hist c.fd := by
      cases hs with
      | clear _ _ => exact h.sock
      | tls _ _ hb => exact h.bio _ hb
      | upgrade _ _ _ => exact h.sock
    refine ⟨h.sent.send hl, h.sock.append (by simp), fun b hb => (h.bio b hb).append (by simp), h.plain⟩
  closed := fun s h =>
    ⟨h.sent.append (closing_noSend _), .inl (closedClient_sock _),
      fun b hb => by
        have hb : (closedClient s.client).bio = some b := hb
        rw [closedClient_bio' _ h.plain] at hb; exact absurd hb (by simp),
      fun _ => closedClient_bio' _ h.plain⟩

/-- Events of `initializeSession`. -/
def OpenEv : Ev → Prop
  | .send _ _ _ _ => False
  | .recv _ _ => False
  | .call _ => False
  | .destroy => False
  | .close _ => False
  | _ => True

/-- What `initializeSession` keeps. -/
structure Opens (s s' : St) : Prop where
  isConnected : s'.client.isConnected = s.client.isConnected
  kind : s'.client.kind = s.client.kind
  bio : s'.client.bio = s.client.bio
  events : NewEvents OpenEv s s'

instance : Sleeping Opens where
  refl := fun _ => ⟨rfl, rfl, rfl, .same rfl⟩
  trans := fun h h' => ⟨h'.isConnected.trans h.isConnected, h'.kind.trans h.kind, h'.bio.trans h.bio, h.events.trans h'.events⟩
  log := fun _ _ _ _ _ _ _ => ⟨rfl, rfl, rfl, .same rfl⟩
  errno := fun _ _ => ⟨rfl, rfl, rfl, .same rfl⟩
  resp := fun _ _ => ⟨rfl, rfl, rfl, .same rfl⟩
  auth := fun _ _ => ⟨rfl, rfl, rfl, .same rfl⟩
  fcntlGet := fun _ _ _ => ⟨rfl, rfl, rfl, .one trivial⟩
  fcntlSet := fun _ _ _ _ => ⟨rfl, rfl, rfl, .one trivial⟩
  select := fun _ _ _ => ⟨rfl, rfl, rfl, .one trivial⟩
  sockopt := fun _ _ _ => ⟨rfl, rfl, rfl, .one trivial⟩
  resolve := fun _ _ _ => ⟨rfl, rfl, rfl, .one trivial⟩
  connect := fun _ _ _ _ => ⟨rfl, rfl, rfl, .one trivial⟩
  sleep := fun _ => ⟨rfl, rfl, rfl, .one trivial⟩

theorem initializeSession_opens : Steps env Opens initializeSession := by
  unfold initializeSession initializePOSIX sysSocket
  steps [Steps.modify, Steps.modifyMem, Steps.ask, logErrno_steps, sysResolve_steps, setNonBlocking_steps, addLog_steps, connectPOSIX_steps]
  · exact ⟨rfl, rfl, rfl, .same rfl⟩
  · exact ⟨rfl, rfl, rfl, .one trivial⟩
  · exact ⟨rfl, rfl, rfl, .same rfl⟩
  · exact ⟨rfl, rfl, rfl, .same rfl⟩

/-- The same events and the same configuration. -/
def Configures (s s' : St) : Prop :=
  s'.client.serverName = s.client.serverName ∧ s'.client.port = s.client.port ∧ NewEvents (fun e => ∀ c, e ≠ .call c) s s'

instance : Anything Configures where
  refl := fun _ => ⟨rfl, rfl, .same rfl⟩
  trans := fun h h' => ⟨h'.1.trans h.1, h'.2.1.trans h.2.1, h.2.2.trans h'.2.2⟩
  log := fun _ _ _ _ _ _ _ => ⟨rfl, rfl, .same rfl⟩
  errno := fun _ _ => ⟨rfl, rfl, .same rfl⟩
  resp := fun _ _ => ⟨rfl, rfl, .same rfl⟩
  auth := fun _ _ => ⟨rfl, rfl, .same rfl⟩
  fcntlGet := fun _ _ _ => ⟨rfl, rfl, .one nofun⟩
  fcntlSet := fun _ _ _ _ => ⟨rfl, rfl, .one nofun⟩
  select := fun _ _ _ => ⟨rfl, rfl, .one nofun⟩
  sockopt := fun _ _ _ => ⟨rfl, rfl, .one nofun⟩
  resolve := fun _ _ _ => ⟨rfl, rfl, .one nofun⟩
  connect := fun _ _ _ _ => ⟨rfl, rfl, .one nofun⟩
  readFile := fun _ _ _ => ⟨rfl, rfl, .one nofun⟩
  sleep := fun _ => ⟨rfl, rfl, .one nofun⟩
  recv := fun _ _ _ => ⟨rfl, rfl, .one nofun⟩
  disconnected := fun _ => ⟨rfl, rfl, .same rfl⟩
  ctx := fun _ _ => ⟨rfl, rfl, .same rfl⟩
  noBio := fun _ => ⟨rfl, rfl, .same rfl⟩
  noSock := fun _ => ⟨rfl, rfl, .same rfl⟩
  close := fun _ _ => ⟨rfl, rfl, .one nofun⟩
  bioFree := fun _ _ => ⟨rfl, rfl, .one nofun⟩
  quit := fun _ _ _ => ⟨rfl, rfl, .one nofun⟩
  connected := fun _ => ⟨rfl, rfl, .same rfl⟩
  send := fun _ _ _ _ _ => ⟨rfl, rfl, .one nofun⟩
  freshLog := fun _ => ⟨rfl, rfl, .same rfl⟩
  keep := fun _ => ⟨rfl, rfl, .same rfl⟩
  bio := fun _ _ => ⟨rfl, rfl, .same rfl⟩
  sock := fun _ _ => ⟨rfl, rfl, .same rfl⟩
  socket := fun _ _ => ⟨rfl, rfl, .one nofun⟩
  tls := fun _ _ _ => ⟨rfl, rfl, .one nofun⟩

theorem configured_append {n0 : Bytes} {p0 : Nat} {h evs : Hist} {n : Bytes} {p : Nat} (hc : Configured n0 p0 h n p)
    (he : ∀ e ∈ evs, ∀ c, e ≠ .call c) : Configured n0 p0 (h ++ evs) n p := by
  induction evs generalizing h with
  | nil => simpa using hc
  | cons e evs ih =>
    have := ih (h := h ++ [e]) (hc.other (fun q => he e (by simp) _) (fun q => he e (by simp) _)) fun x hx => he x (by simp [hx])
    simpa using this

end Verif.Proofs
