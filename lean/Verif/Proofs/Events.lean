import Verif.Proofs.Log
/-!
# Sets of events, and the log inside a session
-/
namespace Verif.Proofs
open Verif Verif.Model Verif.Spec

variable {α : Type} {env : Env}

/-- An event that sends only what `D` allows (QUIT is always allowed). -/
def Allowed (D : SendKind → Bytes → Prop) : Ev → Prop
  | .send .quit _ d _ => d = quitCmd
  | .send k _ d _ => D k d
  | _ => True

/-- The second state has only allowed events in addition. -/
def NewEvents (P : Ev → Prop) (s s' : St) : Prop := ∃ evs, s'.hist = s.hist ++ evs ∧ ∀ e ∈ evs, P e

theorem NewEvents.same {P : Ev → Prop} {s s' : St} (h : s'.hist = s.hist) : NewEvents P s s' := ⟨[], by simp [h], by simp⟩
theorem NewEvents.one {P : Ev → Prop} {s : St} {e : Ev} (h : P e) : NewEvents P s (St.snoc s e) :=
  ⟨[e], rfl, by simpa using h⟩
theorem NewEvents.trans {P : Ev → Prop} {a b c : St} (h : NewEvents P a b) (h' : NewEvents P b c) : NewEvents P a c := by
  obtain ⟨x, hx, px⟩ := h
  obtain ⟨y, hy, py⟩ := h'
  refine ⟨x ++ y, by rw [hy, hx, List.append_assoc], ?_⟩
  intro e he
  rcases List.mem_append.mp he with he | he
  · exact px e he
  · exact py e he

instance (D : SendKind → Bytes → Prop) : Cleaning (NewEvents (Allowed D)) where
  refl := fun _ => .same rfl
  trans := .trans
  log := fun _ _ _ _ _ _ _ => .same rfl
  errno := fun _ _ => .same rfl
  resp := fun _ _ => .same rfl
  auth := fun _ _ => .same rfl
  fcntlGet := fun _ _ _ => .one trivial
  fcntlSet := fun _ _ _ _ => .one trivial
  select := fun _ _ _ => .one trivial
  sockopt := fun _ _ _ => .one trivial
  resolve := fun _ _ _ => .one trivial
  connect := fun _ _ _ _ => .one trivial
  sleep := fun _ => .one trivial
  recv := fun _ _ _ => .one trivial
  disconnected := fun _ => .same rfl
  ctx := fun _ _ => .same rfl
  noBio := fun _ => .same rfl
  noSock := fun _ => .same rfl
  close := fun _ _ => .one trivial
  bioFree := fun _ _ => .one trivial
  quit := fun _ _ _ => .one rfl

instance (D : SendKind → Bytes → Prop) : Filing (NewEvents (Allowed D)) where
  readFile := fun _ _ _ => .one trivial

/-- There is a log in order: always the case between the start of a session and the end of the object. -/
def HasLog (s : St) : Prop := ∃ l, s.client.log = some l ∧ LogOk l

theorem wp_addLog {Q : Unit → St → Prop} {E : Stop → St → Prop} {s : St} {i p : Bytes} (h : HasLog s)
    (hq : ∀ l op, LogOk l → Q () { s with client := { s.client with log := some l }, mem := s.mem ++ [op] }) : wp env (addLog i p) Q E s := by
  obtain ⟨l, hl, ho⟩ := h
  obtain ⟨l', e, ho', _⟩ := log_add_ok ho i p
  unfold addLog
  rw [wp_bind, wp_gets, hl]
  simp only [e]
  exact hq l' _ ho'

instance : Talking (fun s s' => HasLog s → HasLog s') where
  refl := fun _ h => h
  trans := fun h h' x => h' (h x)
  log := by
    intro s l i p l' hl ha ⟨l0, h0, o0⟩
    rw [hl] at h0; cases h0
    obtain ⟨l1, e1, h1, _⟩ := log_add_ok o0 i p
    rw [ha] at e1
    cases e1
    exact ⟨l', rfl, h1⟩
  errno := fun _ _ h => h
  resp := fun _ _ h => h
  auth := fun _ _ h => h
  fcntlGet := fun _ _ _ h => h
  fcntlSet := fun _ _ _ _ h => h
  select := fun _ _ _ h => h
  sockopt := fun _ _ _ h => h
  resolve := fun _ _ _ h => h
  connect := fun _ _ _ _ h => h
  readFile := fun _ _ _ h => h
  sleep := fun _ h => h
  recv := fun _ _ _ h => h
  disconnected := fun _ h => h
  ctx := fun _ _ h => h
  noBio := fun _ h => h
  noSock := fun _ h => h
  close := fun _ _ h => h
  bioFree := fun _ _ h => h
  quit := fun _ _ _ h => h
  connected := fun _ h => h
  send := fun _ _ _ _ _ h => h

end Verif.Proofs
