import Verif.Props.WinWaiting
/-!
# The destructor on Windows (C84)
-/
namespace Verif.Props
open Verif Verif.Model Verif.Spec Verif.Proofs

theorem wireTalk_append (a b : Hist) : wireTalk (a ++ b) = wireTalk a ++ wireTalk b := by
  unfold wireTalk
  rw [spoken_append, List.filter_append]

/-- Nothing was sent and nothing was read. -/
def Hush (s s' : St) : Prop := ∃ evs, s'.hist = s.hist ++ evs ∧ wireTalk evs = []

theorem hush_same {s s' : St} (h : s'.hist = s.hist) : Hush s s' := ⟨[], by rw [h, List.append_nil], rfl⟩
theorem hush_one {s s' : St} {e : Ev} (h : s'.hist = s.hist ++ [e]) (he : isTalk e = false) : Hush s s' := by
  refine ⟨[e], h, ?_⟩
  cases e <;> first | rfl | cases he

instance hush_preord : Preord Hush where
  refl := fun _ => hush_same rfl
  trans := by
    rintro a b c ⟨x, h1, h2⟩ ⟨y, h3, h4⟩
    exact ⟨x ++ y, by rw [h3, h1, List.append_assoc], by rw [wireTalk_append, h2, h4]; rfl⟩

theorem hush_wire {s s' : St} (h : Hush s s') : wireTalk s'.hist = wireTalk s.hist := by
  obtain ⟨evs, h1, h2⟩ := h
  rw [h1, wireTalk_append, h2, List.append_nil]

theorem hush_addLog {env : Env} (i p : Bytes) : Steps env Hush (addLog i p) := by
  constructor
  intro s
  unfold addLog
  rw [wp_bind, wp_gets]
  cases hl : s.client.log with
  | none => exact Preord.refl (R := Hush) s
  | some l =>
    cases ha : l.add i p with
    | error u => simp only [ha]; exact Preord.refl (R := Hush) s
    | ok l' => simp only [ha]; exact hush_same rfl

theorem hush_closeSession {env : Env} : Steps env Hush closeSession := by
  have m : ∀ f : Client → Client, Steps env Hush (M.modify f) := fun f => .modify fun s => hush_same rfl
  have hs : Steps env Hush closeSocket := by
    unfold closeSocket sysClose
    exact .bind (.gets _) fun sock => .ite (.bind (.emit fun s => hush_one rfl rfl) fun _ => m _) (m _)
  unfold closeSession freeTls
  refine .bind (m _) fun _ => .bind (.gets _) fun k => .ite hs (.bind ?_ fun _ => hs)
  refine .bind (m _) fun _ => .bind (.gets _) fun b => .bind ?_ fun _ => m _
  unfold emitBioFree
  cases b with
  | none => exact .pure _
  | some b => exact .emit fun s => hush_one rfl rfl

theorem hush_winClose {env : Env} (w : WinCalls) : Steps env Hush (winClose w) := by
  unfold winClose
  refine .bind hush_closeSession fun _ => .bind (.ask' _) fun r => ?_
  cases r with
  | none => exact .pure _
  | some e => exact .bind (.modify fun s => hush_same rfl) fun _ => hush_addLog _ _

/-- Without an open session `cleanup` only closes. -/
theorem hush_cleanup {env : Env} {P : Platform} (hp : Steps env Hush P.close) {s : St} (hc : s.client.isConnected = false) : Hush s (Gen.cleanup P env s).2 := by
  have key : ∀ n, Hush s (Gen.cleanupN P n env s).2 := by
    intro n
    cases n with
    | zero => exact hush_same rfl
    | succ n =>
      refine final (P := Hush s) ?_
      unfold Gen.cleanupN
      rw [wp_bind, wp_gets, wp_bind, wp_gets, hc, Bool.and_false, wp_ite]
      exact ⟨nofun, fun _ => hp.run s⟩
  exact key env.depth

theorem hush_destroy {env : Env} {P : Platform} (hp : Steps env Hush P.close) {s : St} (hc : s.client.isConnected = false) : Hush s (Gen.destroy P env s).2 :=
  Preord.trans (R := Hush) (hush_one rfl rfl) (hush_cleanup (s := { s with hist := s.hist ++ [.destroy] }) hp hc)

theorem life_ok {P : Platform} {cs : List Call} {env : Env} {s t : St} {rs : List CallRes} (h : Gen.runCalls P cs env s = (.ok rs, t)) :
    (Gen.life P cs env s).2 = (Gen.destroy P env t).2 ∧
      (Gen.life P cs env s).1 = match (Gen.destroy P env t).1 with | .ok _ => .ok rs | .stop x => .stop x := by
  unfold Gen.life
  rw [run_bind h]
  show (M.bind _ _ env t).2 = _ ∧ (M.bind _ _ env t).1 = _
  unfold M.bind
  cases Gen.destroy P env t with
  | mk r u => cases r <;> exact ⟨rfl, rfl⟩

theorem life_stop {P : Platform} {cs : List Call} {env : Env} {s t : St} {x : Stop} (h : Gen.runCalls P cs env s = (.stop x, t)) : Gen.life P cs env s = (.stop x, t) := by
  unfold Gen.life
  show M.bind _ _ env s = _
  unfold M.bind
  rw [h]

theorem beside_open {N : Nat → Nat → Prop} {s s' : St} (h : Beside N False s s') (hc : s.client.isConnected = true) : Beside N True s s' :=
  { h with log := fun _ => h.log (.inr hc), sock := fun _ => h.sock (.inr hc) }

theorem destroy_both {N : Nat → Nat → Prop} {e : Env} {w : WinCalls} {s s' : St} (h : Beside N True s s') :
    both e (Gen.destroy (windows w)) (Gen.destroy posix) (fun _ _ t t' => spoken t.hist = spoken t'.hist) (fun t t' => spoken t.hist = spoken t'.hist) s s' := by
  unfold Gen.destroy
  refine both_bind ?_
  rw [both_emit]
  exact both_mono ((cleanup_sim trivial).run _ _ (h.event .destroy trivial)) (fun _ _ _ _ q => q.2.spoken) fun _ _ q => q

/-- The whole life of a client, with its destructor: on Windows it sends and reads what it sends and reads on POSIX. -/
theorem C84_whole_life_partial (e : Env) (w : WinCalls) (kind : Kind) (name : Bytes) (port : Nat) (cs : List Call) (hf : ∀ c ∈ cs, CallFits c) :
    ∃ e' : Env, e'.depth = e.depth ∧ e'.fuel = e.fuel ∧ wireTalk (Gen.life (windows w) cs e (newClient kind name port)).2.hist = wireTalk (life cs e' (newClient kind name port)).2.hist := by
  refine ⟨asPosix e, rfl, rfl, ?_⟩
  rw [← gen_life]
  rcases both_cases (runCalls_both (e := e) (w := w) cs hf (.new kind name port)) with ⟨rs, rs', t, t', h1, h2, -, hb⟩ | ⟨x, t, t', h1, h2, hb⟩
  · rw [(life_ok (show Gen.runCalls (windows w) cs e (newClient kind name port) = _ from h1)).1, (life_ok (show Gen.runCalls posix cs (asPosix e) (newClient kind name port) = _ from h2)).1]
    cases hc : t.client.isConnected with
    | true =>
      have := destroy_both (e := e) (w := w) (beside_open hb hc)
      unfold wireTalk
      rcases both_cases this with ⟨_, _, u, u', h3, h4, h5⟩ | ⟨_, u, u', h3, h4, h5⟩ <;> rw [h3, h4] <;> exact congrArg (List.filter isTalk) h5
    | false =>
      rw [hush_wire (hush_destroy (hush_winClose w) hc), hush_wire (hush_destroy (P := posix) hush_closeSession (hb.connected ▸ hc))]
      exact congrArg (List.filter isTalk) hb.spoken
  · rw [life_stop (show Gen.runCalls (windows w) cs e (newClient kind name port) = _ from h1), life_stop (show Gen.runCalls posix cs (asPosix e) (newClient kind name port) = _ from h2)]
    exact congrArg (List.filter isTalk) hb

/-- When the destructor finds an open session, the whole dialogue is the same, and the destructor ends in the same way. -/
theorem C84_destructor_partial (e : Env) (w : WinCalls) (kind : Kind) (name : Bytes) (port : Nat) (cs : List Call) (hf : ∀ c ∈ cs, CallFits c) (rs : List CallRes) (t : St)
    (h : Gen.runCalls (windows w) cs e (newClient kind name port) = (.ok rs, t)) (hc : t.client.isConnected = true) :
    ∃ e' : Env, e'.depth = e.depth ∧ e'.fuel = e.fuel ∧
      SameEnd (Gen.life (windows w) cs e (newClient kind name port)).1 (life cs e' (newClient kind name port)).1 ∧
      spoken (Gen.life (windows w) cs e (newClient kind name port)).2.hist = spoken (life cs e' (newClient kind name port)).2.hist := by
  refine ⟨asPosix e, rfl, rfl, ?_⟩
  rw [← gen_life]
  rcases both_cases (runCalls_both (e := e) (w := w) cs hf (.new kind name port)) with ⟨rs0, rs', t0, t', h1, h2, hr, hb⟩ | ⟨x, t0, t', h1, h2, hb⟩
  · have h1 : Gen.runCalls (windows w) cs e (newClient kind name port) = _ := h1
    have h2 : Gen.runCalls posix cs (asPosix e) (newClient kind name port) = _ := h2
    rw [h] at h1
    cases h1
    rw [(life_ok h).1, (life_ok h).2, (life_ok h2).1, (life_ok h2).2]
    rcases both_cases (destroy_both (e := e) (w := w) (beside_open hb hc)) with ⟨_, _, u, u', h3, h4, h5⟩ | ⟨_, u, u', h3, h4, h5⟩ <;> rw [h3, h4]
    · exact ⟨.ok hr, h5⟩
    · exact ⟨.stop _, h5⟩
  · have h1 : Gen.runCalls (windows w) cs e (newClient kind name port) = _ := h1
    rw [h] at h1
    cases h1

/-- A client in batch mode on Windows: the destructor sends the QUIT. -/
example : (∀ c ∈ [Call.setBatchMode true, .sendMail mail], CallFits c) ∧
    (let env := scripted ([.data b!"220 hi\r\n"] ++ clear [b!"250 ok\r\n", b!"250 ok\r\n", b!"250 ok\r\n", b!"354 go\r\n", b!"250 ok\r\n"])
     let t := Gen.runCalls (windows fineCalls) [.setBatchMode true, .sendMail mail] env (newClient .smtp b!"mail.org" 25)
     let u := Gen.life (windows fineCalls) [.setBatchMode true, .sendMail mail] env (newClient .smtp b!"mail.org" 25)
     (t.1, t.2.client.isConnected, u.1, (wireTalk u.2.hist).getLast?)) =
      (.ok [.done, .returned 0], true, .ok [.done, .returned 0], some (.send .quit (.raw 5) b!"QUIT\r\n" (.sent 6))) :=
  ⟨fun c hc => by
      rcases List.mem_cons.mp hc with rfl | hc
      · trivial
      · rcases List.mem_cons.mp hc with rfl | hc
        · exact mail_fits
        · exact absurd hc List.not_mem_nil, by decide +kernel⟩

end Verif.Props
