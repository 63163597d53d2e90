import Verif.Proofs.Guard
/-!
# Closing, and invariants as relations
-/
namespace Verif.Proofs
open Verif Verif.Model

variable {α : Type} {env : Env}

/-- The client after `closeSession`. -/
def closedClient (c : Client) : Client :=
  if c.kind = .smtp then { c with isConnected := false, sock := 0 }
  else { c with isConnected := false, ctx := false, bio := none, sock := 0 }

/-- What `closeSession` does. -/
def closingEvs (c : Client) : Hist :=
  (if c.kind = .smtp then [] else match c.bio with
    | some b => [.bioFree b.id]
    | none => []) ++ (if c.sock ≠ 0 then [.close c.sock] else [])

theorem closeSession_run (s : St) :
    closeSession env s = (.ok (), { s with client := closedClient s.client, hist := s.hist ++ closingEvs s.client }) := by
  unfold closeSession closedClient closingEvs
  rw [bind_run]
  simp only [M.modify]
  rw [bind_run]
  simp only [gets_run]
  by_cases hk : s.client.kind = .smtp
  · simp only [hk, if_true]
    unfold closeSocket sysClose
    rw [bind_run]
    simp only [gets_run]
    by_cases hs : s.client.sock = 0
    · simp [hs, M.modify]
    · simp [hs, M.modify, M.emit, bind_run]
  · simp only [hk, if_false]
    unfold freeTls closeSocket sysClose emitBioFree
    simp only [bind_run, gets_run, M.modify]
    cases hb : s.client.bio with
    | none =>
      by_cases hs : s.client.sock = 0
      · simp [hs, M.modify, pure_run]
      · simp [hs, M.modify, M.emit, bind_run, pure_run]
    | some b =>
      by_cases hs : s.client.sock = 0
      · simp [hs, M.modify, M.emit]
      · simp [hs, M.modify, M.emit, bind_run]

/-- Kept once it holds. -/
def Pres (I : St → Prop) (s s' : St) : Prop := I s → I s'

theorem Pres.use {I : St → Prop} {m : M α} (h : Steps env (Pres I) m) {s : St} (hs : I s) :
    wp env m (fun _ => I) (fun _ => I) s := wp_mono (h.run s) (fun _ _ h => h hs) (fun _ _ h => h hs)

/-- An invariant of the session code after the connection was established. -/
structure GuardInv (D : SendKind → Bytes → Prop) (I : St → Prop) : Prop where
  quitOk : D .quit quitCmd
  client : ∀ s c m, SameConn s.client c → I s → I { s with client := c, mem := m }
  quiet : ∀ s e, DeafEv e → I s → I (St.snoc s e)
  recvRaw : ∀ s r, I s → I (St.snoc s (.recv (.raw s.client.sock) r))
  recvTls : ∀ s b r, s.client.bio = some b → I s → I (St.snoc s (.recv (.tls b.id b.fd) r))
  send : ∀ s k c d r, Says D s.client k c d → I s → I (St.snoc s (.send k c d r))
  closed : ∀ s, I s → I { s with client := closedClient s.client, hist := s.hist ++ closingEvs s.client }

theorem GuardInv.guarded {D : SendKind → Bytes → Prop} {I : St → Prop} (h : GuardInv D I) : Guarded D (Pres I) where
  refl := fun _ h => h
  trans := fun h h' x => h' (h x)
  log := fun s _ _ _ _ _ _ => h.client s _ _ rfl
  errno := fun s _ => h.client s _ _ rfl
  resp := fun s _ => h.client s _ _ rfl
  auth := fun s _ => h.client s _ _ rfl
  fcntlGet := fun s _ _ => h.quiet s _ trivial
  fcntlSet := fun s _ _ _ => h.quiet s _ trivial
  select := fun s _ _ => h.quiet s _ trivial
  sockopt := fun s _ _ => h.quiet s _ trivial
  resolve := fun s _ _ => h.quiet s _ trivial
  connect := fun s _ _ _ => h.quiet s _ trivial
  quitOk := h.quitOk
  sleep := fun s => h.quiet s _ trivial
  recvRaw := fun s r => h.recvRaw s r
  recvTls := fun s b r hb => h.recvTls s b r hb
  send := fun s k c d r hs => h.send s k c d r hs
  closed := by
    intro env s
    unfold wp
    rw [closeSession_run]
    exact h.closed s

theorem GuardInv.mail {D : SendKind → Bytes → Prop} {I : St → Prop} (h : GuardInv D I)
    (hc : ∀ s, I s → I { s with client := { s.client with isConnected := true } }) : GuardedMail D (Pres I) :=
  { h.guarded with
    connected := hc
    readFile := fun s _ _ => h.quiet s _ trivial }

end Verif.Proofs
