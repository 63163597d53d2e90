import Verif.Proofs.Exchange
import Verif.Spec.Delivery
/-!
# Conversations between two states
-/
namespace Verif.Proofs
open Verif Verif.Model Verif.Spec

variable {α : Type} {env : Env}

/-- The history only grows. -/
def Ext (s s' : St) : Prop := ∃ evs, s'.hist = s.hist ++ evs

theorem Ext.same {s s' : St} (h : s'.hist = s.hist) : Ext s s' := ⟨[], by simp [h]⟩
theorem Ext.one {s : St} {e : Ev} : Ext s (St.snoc s e) := ⟨[e], rfl⟩
theorem Ext.trans {a b c : St} (h : Ext a b) (h' : Ext b c) : Ext a c := by
  obtain ⟨x, hx⟩ := h
  obtain ⟨y, hy⟩ := h'
  exact ⟨x ++ y, by rw [hy, hx, List.append_assoc]⟩

instance : Lifelong Ext where
  refl := fun _ => .same rfl
  trans := .trans
  log := fun _ _ _ _ _ _ _ => .same rfl
  errno := fun _ _ => .same rfl
  resp := fun _ _ => .same rfl
  auth := fun _ _ => .same rfl
  fcntlGet := fun _ _ _ => .one
  fcntlSet := fun _ _ _ _ => .one
  select := fun _ _ _ => .one
  sockopt := fun _ _ _ => .one
  resolve := fun _ _ _ => .one
  connect := fun _ _ _ _ => .one
  readFile := fun _ _ _ => .one
  sleep := fun _ => .one
  recv := fun _ _ _ => .one
  disconnected := fun _ => .same rfl
  ctx := fun _ _ => .same rfl
  noBio := fun _ => .same rfl
  noSock := fun _ => .same rfl
  close := fun _ _ => .one
  bioFree := fun _ _ => .one
  quit := fun _ _ _ => .one
  connected := fun _ => .same rfl
  send := fun _ _ _ _ _ => .one
  freshLog := fun _ => .same rfl
  keep := fun _ => .same rfl
  setKeep := fun _ _ => .same rfl
  bio := fun _ _ => .same rfl
  sock := fun _ _ => .same rfl
  socket := fun _ _ => .one
  tls := fun _ _ _ => .one
  call := fun _ _ => .one
  destroy := fun _ => .one
  serverName := fun _ _ => .same rfl
  port := fun _ _ => .same rfl
  batch := fun _ _ => .same rfl
  timeout := fun _ _ => .same rfl
  credential := fun _ _ => .same rfl
  accept := fun _ _ => .same rfl

theorem Ended.ext {s s' : St} (h : Ended s s') : Ext s s' := by obtain ⟨_, evs, h, _⟩ := h; exact ⟨evs, h⟩

/-- The server answered 0 or descriptor 0 was written to. -/
def Bad (s s' : St) : Prop := ∃ evs, s'.hist = s.hist ++ evs ∧ (AnsweredZero evs ∨ WroteToZero evs)

theorem answered_mono {a b c : Hist} {d : Bytes} {code : Int} (h : Answered b d code) : Answered (a ++ b ++ c) d code := by
  obtain ⟨pre, ch, n, mid, post, rfl, h1, h2⟩ := h
  exact ⟨a ++ pre, ch, n, mid, post ++ c, by simp, h1, h2⟩

theorem answeredZero_mono {a b c : Hist} (h : AnsweredZero b) : AnsweredZero (a ++ b ++ c) := by
  obtain ⟨d, h⟩ := h
  exact ⟨d, answered_mono h⟩

theorem wroteToZero_mono {a b c : Hist} (h : WroteToZero b) : WroteToZero (a ++ b ++ c) := by
  obtain ⟨k, d, n, h⟩ := h
  exact ⟨k, d, n, by simp [h]⟩

theorem Bad.after {a b c : St} (h : Ext a b) (h' : Bad b c) : Bad a c := by
  obtain ⟨x, hx⟩ := h
  obtain ⟨y, hy, hb⟩ := h'
  refine ⟨x ++ y, by rw [hy, hx, List.append_assoc], ?_⟩
  rcases hb with hb | hb
  · left; have := answeredZero_mono (a := x) (c := []) hb; simpa using this
  · right; have := wroteToZero_mono (a := x) (c := []) hb; simpa using this

theorem Bad.before {a b c : St} (h : Bad a b) (h' : Ext b c) : Bad a c := by
  obtain ⟨x, hx, hb⟩ := h
  obtain ⟨y, hy⟩ := h'
  refine ⟨x ++ y, by rw [hy, hx, List.append_assoc], ?_⟩
  rcases hb with hb | hb
  · left; exact answeredZero_mono (a := []) (c := y) hb
  · right; exact wroteToZero_mono (a := []) (c := y) hb

/-- The connection is the same, and this was said (short writes apart). -/
def Said (items : List Item) (s s' : St) : Prop :=
  SameConn s.client s'.client ∧ ∃ evs, s'.hist = s.hist ++ evs ∧ (NoShortWrites evs → talk evs = ([], items))

theorem noShort_append {a b : Hist} (h : NoShortWrites (a ++ b)) : NoShortWrites a ∧ NoShortWrites b :=
  ⟨fun k c d n hm => h k c d n (by simp [hm]), fun k c d n hm => h k c d n (by simp [hm])⟩

theorem Said.trans {x y : List Item} {a b c : St} (h : Said x a b) (h' : Said y b c) : Said (x ++ y) a c := by
  obtain ⟨hc, e1, h1, t1⟩ := h
  obtain ⟨hc', e2, h2, t2⟩ := h'
  refine ⟨hc.trans hc', e1 ++ e2, by rw [h2, h1, List.append_assoc], fun hn => ?_⟩
  obtain ⟨n1, n2⟩ := noShort_append hn
  have := t1 n1
  have := t2 n2
  rw [talk_append (by rw [t2 n2]), t1 n1, t2 n2]

theorem Said.ext {x : List Item} {a b : St} (h : Said x a b) : Ext a b := by obtain ⟨_, e, h, _⟩ := h; exact ⟨e, h⟩

theorem Deaf.said {s s' : St} (h : Deaf s s') : Said [] s s' := by
  obtain ⟨hc, evs, h1, h2⟩ := h
  exact ⟨hc, evs, h1, fun _ => by rw [talk_quiet fun e he => deaf_quiet (h2 e he), heard_deaf h2]⟩

theorem Said.chan {x : List Item} {a b : St} (h : Said x a b) : Proofs.chan b.client = Proofs.chan a.client := chan_same h.1
theorem Deaf.chan {a b : St} (h : Deaf a b) : Proofs.chan b.client = Proofs.chan a.client := chan_same h.1

theorem Deaf.then_said {x : List Item} {a b c : St} (h : Deaf a b) (h' : Said x b c) : Said x a c := h.said.trans h'
theorem Said.then_deaf {x : List Item} {a b c : St} (h : Said x a b) (h' : Deaf b c) : Said x a c := by
  have := h.trans h'.said; rwa [List.append_nil] at this

theorem Replied.said {d : Bytes} {code : Int} {s s' : St} (h : Replied d code s s') :
    ∃ t, Said [.cmd (Proofs.chan s.client) (cstr d) t] s s' ∧ ReplyCode t code := by
  obtain ⟨n, t, ⟨hc, evs, h1, h2, h3⟩, hr⟩ := h
  refine ⟨t, ⟨hc, .send .cmd (Proofs.chan s.client) (cstr d) (.sent n) :: evs, by rw [h1]; simp [St.snoc], fun hn => ?_⟩, hr⟩
  have hn := hn .cmd _ _ n (List.mem_cons_self ..)
  rw [talk_cons, talk_quiet h2, h3, hn]
  simp [talkStep]

/-- A command was answered between the states. -/
def Ans (d : Bytes) (code : Int) (s s' : St) : Prop := ∃ evs, s'.hist = s.hist ++ evs ∧ Answered evs d code

theorem Ans.after {d code} {a b c : St} (h : Ext a b) (h' : Ans d code b c) : Ans d code a c := by
  obtain ⟨x, hx⟩ := h
  obtain ⟨y, hy, hb⟩ := h'
  refine ⟨x ++ y, by rw [hy, hx, List.append_assoc], ?_⟩
  have := answered_mono (a := x) (c := []) hb; simpa using this

theorem Ans.before {d code} {a b c : St} (h : Ans d code a b) (h' : Ext b c) : Ans d code a c := by
  obtain ⟨x, hx, hb⟩ := h
  obtain ⟨y, hy⟩ := h'
  exact ⟨x ++ y, by rw [hy, hx, List.append_assoc], answered_mono (a := []) (c := y) hb⟩

theorem Replied.ans {d : Bytes} {code : Int} {s s' : St} (h : Replied d code s s') : Ans (cstr d) code s s' := by
  obtain ⟨n, t, ⟨hc, evs, h1, h2, h3⟩, hr⟩ := h
  refine ⟨.send .cmd (Proofs.chan s.client) (cstr d) (.sent n) :: evs, by rw [h1]; simp [St.snoc], ?_⟩
  refine ⟨[], _, n, evs, [], by rw [List.append_nil]; rfl, ?_, by rw [h3]; exact hr⟩
  intro e he
  have := h2 e he
  cases e <;> simp_all [QuietEv, DeafEv, IsSend]

theorem Replied.bad {d : Bytes} {s s' : St} (h : Replied d 0 s s') : Bad s s' := by
  obtain ⟨evs, h1, h2⟩ := h.ans
  exact ⟨evs, h1, .inl ⟨_, h2⟩⟩

theorem Accepted.said_content {d : Bytes} {s s' : St} (h : Accepted .content d s s') :
    Said [.content (Proofs.chan s.client) (cstr d)] s s' := by
  obtain ⟨n, rfl⟩ := h
  refine ⟨rfl, _, rfl, fun hn => ?_⟩
  have hn := hn .content _ _ n (List.mem_cons_self ..)
  rw [hn]
  simp [talk, talkStep]

theorem Accepted.said_quit {d : Bytes} {s s' : St} (h : Accepted .quit d s s') :
    Said [.quit (Proofs.chan s.client) (cstr d)] s s' := by
  obtain ⟨n, rfl⟩ := h
  refine ⟨rfl, _, rfl, fun hn => ?_⟩
  have hn := hn .quit _ _ n (List.mem_cons_self ..)
  rw [hn]
  simp [talk, talkStep]

theorem Accepted.ext {k : SendKind} {d : Bytes} {s s' : St} (h : Accepted k d s s') : Ext s s' := by
  obtain ⟨n, rfl⟩ := h; exact .one

theorem Dead.chan {c : Client} (h : Dead c) : Proofs.chan c = .raw 0 := by
  unfold Proofs.chan
  split
  · rw [h.sock]
  · rename_i hk
    rw [h.bio (by intro hs; rw [hs] at hk; simp at hk), h.sock]

theorem Accepted.bad {k : SendKind} {d : Bytes} {s s' : St} (h : Accepted k d s s') (hd : Dead s.client) : Bad s s' := by
  obtain ⟨n, rfl⟩ := h
  exact ⟨_, rfl, .inr ⟨k, cstr d, n, by rw [hd.chan]; simp⟩⟩

end Verif.Proofs
