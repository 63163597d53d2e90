import Verif.Proofs.BesideMail
import Verif.Proofs.Platform
import Verif.Props.Afresh
import Verif.Props.Causes
import Verif.Props.Delivery
import Verif.Props.Secure
import Verif.Props.Waiting
import Verif.Props.WinReports
/-!
# The dialogue on Windows (C84)

For every run of the client on Windows there is a POSIX world in which the same calls have the same dialogue and the same results. What was proved for all POSIX worlds is thereby known
on Windows, as far as it speaks of the dialogue.
-/
namespace Verif.Props
open Verif Verif.Model Verif.Spec Verif.Proofs

/-! ### What the dialogue shows -/

theorem spoken_append (a b : Hist) : spoken (a ++ b) = spoken a ++ spoken b := List.filterMap_append ..

theorem mem_spoken {h : Hist} {e f : Ev} (hm : e ∈ h) (he : spokenEv e = some f) : f ∈ spoken h := List.mem_filterMap.mpr ⟨e, hm, he⟩

theorem rawSend_spoken {h : Hist} {k : SendKind} {fd : Int} {d : Bytes} {r : SendRes} : .send k (.raw fd) d r ∈ spoken h ↔ .send k (.raw fd) d r ∈ h := by
  constructor
  · intro hm
    obtain ⟨x, hx, hs⟩ := List.mem_filterMap.mp hm
    cases x <;> simp only [spokenEv, Option.some.injEq, reduceCtorEq] at hs
    rename_i k' c d' r'
    cases c <;> simp only [chanKind, Ev.send.injEq, reduceCtorEq, Chan.raw.injEq, false_and, and_false] at hs
    obtain ⟨rfl, rfl, rfl, rfl⟩ := hs
    exact hx
  · exact fun hm => mem_spoken hm rfl

theorem socket_spoken {h : Hist} {r : ValRes} : .socket r ∈ spoken h ↔ .socket r ∈ h := by
  constructor
  · intro hm
    obtain ⟨x, hx, hs⟩ := List.mem_filterMap.mp hm
    cases x <;> simp only [spokenEv, Option.some.injEq, reduceCtorEq] at hs
    cases hs
    exact hx
  · exact fun hm => mem_spoken hm rfl

theorem readFile_spoken {h : Hist} {p : Bytes} {r : Option Bytes} (hm : .readFile p r ∈ h) : .readFile p r ∈ spoken h := mem_spoken hm rfl

theorem readFile_of_spoken {h : Hist} {p : Bytes} {r : Option Bytes} (hm : .readFile p r ∈ spoken h) : .readFile p r ∈ h := by
  obtain ⟨x, hx, hs⟩ := List.mem_filterMap.mp hm
  cases x <;> simp only [spokenEv, Option.some.injEq, reduceCtorEq] at hs
  cases hs
  exact hx

theorem contents_spoken (h : Hist) : contents (spoken h) = contents h := by
  unfold contents spoken
  rw [List.filterMap_filterMap]
  congr 1
  funext x
  cases x <;> try rfl
  rename_i k _ _ _
  cases k <;> rfl

theorem heard_spoken (h : Hist) : Spec.heard (spoken h) = Spec.heard h := by
  induction h with
  | nil => rfl
  | cons x h ih =>
    show Spec.heard (spoken ([x] ++ h)) = Spec.heard ([x] ++ h)
    rw [spoken_append]
    unfold Spec.heard at ih ⊢
    rw [List.flatMap_append, List.flatMap_append, ih]
    congr 1
    cases x <;> try rfl
    rename_i r
    cases r <;> rfl

theorem quiet_spoken {h : Hist} (hq : ∀ e ∈ h, ¬ IsSend e) : ∀ e ∈ spoken h, ¬ IsSend e := by
  intro e he hs
  obtain ⟨x, hx, hy⟩ := List.mem_filterMap.mp he
  cases x <;> simp only [spokenEv, Option.some.injEq, reduceCtorEq] at hy <;> subst hy <;> first | exact hs.elim | exact hq _ hx trivial

theorem answered_spoken {h : Hist} {d : Bytes} {code : Int} (ha : Answered h d code) : Answered (spoken h) d code := by
  obtain ⟨pre, c, n, mid, post, rfl, h1, h2⟩ := ha
  refine ⟨spoken pre, chanKind c, n, spoken mid, spoken post, ?_, ?_, ?_⟩
  · rw [spoken_append, ← List.singleton_append, spoken_append, spoken_append]
    rfl
  · exact quiet_spoken h1
  · rw [heard_spoken]
    exact h2

theorem dataReads_spoken (h : Hist) : dataReads (spoken h) = dataReads h := by
  induction h with
  | nil => rfl
  | cons x h ih =>
    cases hx : spokenEv x with
    | none =>
      have : spoken (x :: h) = spoken h := by unfold spoken; rw [List.filterMap_cons, hx]
      rw [this, ih]
      cases x <;> first | (simp only [spokenEv, reduceCtorEq] at hx; done) | simp [dataReads]
    | some y =>
      have : spoken (x :: h) = y :: spoken h := by unfold spoken; rw [List.filterMap_cons, hx]
      rw [this]
      cases x <;> simp only [spokenEv, Option.some.injEq, reduceCtorEq] at hx <;> subst hx <;> try (simpa [dataReads] using ih)
      rename_i c r
      cases r <;> simpa [dataReads] using ih

theorem garbled_spoken {h : Hist} (hg : Garbled h) : Garbled (spoken h) := by
  obtain ⟨pre, mid, post, t, rfl, h1, h2, h3, h4⟩ := hg
  refine ⟨spoken pre, spoken mid, spoken post, t, by rw [spoken_append, spoken_append], quiet_spoken h1, by rw [dataReads_spoken]; exact h2, ?_, h4⟩
  rcases h3 with h | ⟨ch, d, hm, h⟩
  · exact .inl (by rw [heard_spoken, h])
  · exact .inr ⟨chanKind ch, d, mem_spoken hm rfl, h⟩

/-- A conversation without the numbers of the TLS connections. -/
def itemKind : Item → Item
  | .cmd c d t => .cmd (chanKind c) d t
  | .content c d => .content (chanKind c) d
  | .quit c d => .quit (chanKind c) d

theorem talk_spoken (h : Hist) : Spec.talk (spoken h) = ((Spec.talk h).1, (Spec.talk h).2.map itemKind) := by
  induction h with
  | nil => rfl
  | cons x h ih =>
    have step : ∀ y, Spec.talk (y :: h) = talkStep y (Spec.talk h) := fun _ => rfl
    cases hx : spokenEv x with
    | none =>
      have : spoken (x :: h) = spoken h := by unfold spoken; rw [List.filterMap_cons, hx]
      rw [this, ih, step]
      cases x <;> first | (simp only [spokenEv, reduceCtorEq] at hx; done) | rfl
    | some y =>
      have : spoken (x :: h) = y :: spoken h := by unfold spoken; rw [List.filterMap_cons, hx]
      rw [this, step]
      show talkStep y (Spec.talk (spoken h)) = _
      rw [ih]
      cases x <;> simp only [spokenEv, Option.some.injEq, reduceCtorEq] at hx <;> subst hx <;> try rfl
      · rename_i k c d r
        cases k <;> cases r <;> rfl
      · rename_i c r
        cases r <;> rfl

theorem conversation_spoken (h : Hist) : conversation (spoken h) = (conversation h).map itemKind := by
  unfold conversation
  rw [talk_spoken]

theorem turns_spoken {ch : Chan} {l : List (Bytes × Int)} {is : List Item} (h : Turns ch l is) : Turns (chanKind ch) l (is.map itemKind) := by
  induction h with
  | nil => exact .nil
  | cons h _ ih => exact .cons h ih

theorem delivered_spoken {ch : Chan} {m : Message} {files : List (Option Bytes)} {keep : Bool} {is : List Item} (h : Delivered ch m files keep is) :
    Delivered (chanKind ch) m files keep (is.map itemKind) := by
  obtain ⟨sender, rcpts, data, header, body, done, rfl, ⟨pre, f, post, h1, h2⟩, h3, h4, h5, h6, h7, h8⟩ := h
  refine ⟨sender.map itemKind, rcpts.map itemKind, data.map itemKind, header, body, done.map itemKind, ?_, ⟨pre, f, post, h1, turns_spoken h2⟩, turns_spoken h3, turns_spoken h4, h5, h6, h7,
    turns_spoken h8⟩
  simp only [List.map_append, List.map_map]
  congr 1
  cases keep <;> rfl

/-! ### From Windows to POSIX -/

theorem grows (h x : Hist) : ∃ y, (relayed (h ++ x)).out = (relayed h).out ++ y := by
  induction x generalizing h with
  | nil => exact ⟨[], by simp⟩
  | cons e x ih =>
    have step : ∀ t : Relay, ∃ z, (t.step e).out = t.out ++ z := by
      intro t
      unfold Relay.step
      split
      · split <;> exact ⟨[], by simp [Relay.skip]⟩
      · split <;> first | exact ⟨_, rfl⟩ | exact ⟨[], by simp [Relay.skip]⟩
    obtain ⟨y, hy⟩ := ih (h ++ [e])
    obtain ⟨z, hz⟩ := step (relayed h)
    rw [← relayed_snoc] at hz
    exact ⟨z ++ y, by rw [← List.append_assoc, ← hz, ← hy, List.append_assoc]; rfl⟩

/-- A new object. -/
def newClient (kind : Kind) (name : Bytes) (port : Nat) : St := { client := .init kind name port, hist := [] }

/-- Neither program distinguishes the two: the settings, whether there is a session and a TLS connection, the last response, the options of the server. -/
structure SameView (c c' : Client) : Prop where
  settings : SameSettings c c'
  connected : c.isConnected = c'.isConnected
  response : c.lastResponse = c'.lastResponse
  options : c.authOptions = c'.authOptions
  tls : c.bio = none ↔ c'.bio = none

theorem both_results {e : Env} {m m' : M (List CallRes)} {s s' : St} {R : St → St → Prop} (h : both e m m' (fun a b t t' => SameResults a b ∧ R t t') Parted s s')
    (hr : ∀ t t', R t t' → spoken t.hist = spoken t'.hist) : SameEnd (m e s).1 (m' (asPosix e) s').1 ∧ spoken (m e s).2.hist = spoken (m' (asPosix e) s').2.hist := by
  unfold both at h
  split at h
  · next a t b t' h1 h2 => rw [h1, h2]; exact ⟨.ok h.1, hr _ _ h.2⟩
  · next x t y t' h1 h2 => rw [h1, h2]; cases h.1; exact ⟨.stop _, h.2⟩
  · exact h.elim

/-- **C84** (partial). Whatever an application calls and whatever Windows, the network and the server do, as long as no line to be sent has 2 GiB: there is a POSIX world – with the same stack and
the same patience – in which the same calls give the same results up to the codes that only one of the platforms has, end the same way if they do not come back, and have the same dialogue:
the same bytes are sent and received on the same channels in the same order, with the same pauses, TLS calls and files in between. -/
theorem C84_same_dialogue_partial (e : Env) (w : WinCalls) (kind : Kind) (name : Bytes) (port : Nat) (cs : List Call) (hf : ∀ c ∈ cs, CallFits c) :
    ∃ e' : Env, e'.depth = e.depth ∧ e'.fuel = e.fuel ∧
      SameEnd (Gen.runCalls (windows w) cs e (newClient kind name port)).1 (runCalls cs e' (newClient kind name port)).1 ∧
      spoken (Gen.runCalls (windows w) cs e (newClient kind name port)).2.hist = spoken (runCalls cs e' (newClient kind name port)).2.hist := by
  refine ⟨asPosix e, rfl, rfl, ?_⟩
  rw [← gen_runCalls]
  exact both_results (runCalls_both cs hf (.new kind name port)) fun _ _ h => h.spoken

/-- Every property of the dialogue that holds on POSIX, whatever the world does, holds on Windows. -/
theorem C84_transfer_partial (kind : Kind) (name : Bytes) (port : Nat) (cs : List Call) (hf : ∀ c ∈ cs, CallFits c) (P : List Ev → Prop)
    (hp : ∀ e, P (spoken (runCalls cs e (newClient kind name port)).2.hist)) (e : Env) (w : WinCalls) : P (spoken (Gen.runCalls (windows w) cs e (newClient kind name port)).2.hist) := by
  obtain ⟨e', -, -, -, h⟩ := C84_same_dialogue_partial e w kind name port cs hf
  rw [h]
  exact hp e'

theorem beside_bio {N : Nat → Nat → Prop} {k : Prop} {s s' : St} (h : Beside N k s s') : s.client.bio = none ↔ s'.client.bio = none := by
  rcases h.bio with ⟨h1, h2⟩ | ⟨i, i', fd, h1, h2, -⟩ <;> rw [h1, h2] <;> simp

theorem each_mail (e : Env) (w : WinCalls) (kind : Kind) (name : Bytes) (port : Nat) (cs : List Call) (hf : ∀ c ∈ cs, CallFits c) (m : Message) (hm : MessageFits m)
    (rs : List CallRes) (t u : St) (code : Int) (h1 : Gen.runCalls (windows w) cs e (newClient kind name port) = (.ok rs, t)) (h2 : Gen.sendMail (windows w) m e t = (.ok code, u)) :
    ∃ e' rs' t' code' u', runCalls cs e' (newClient kind name port) = (.ok rs', t') ∧ sendMail m e' t' = (.ok code', u') ∧ SameResults rs rs' ∧ SameCode code code' ∧
      SameView t.client t'.client ∧ SameView u.client u'.client ∧ spoken t.hist = spoken t'.hist ∧
      ∀ evs', u'.hist = t'.hist ++ evs' → ∃ evs, u.hist = t.hist ++ evs ∧ spoken evs = spoken evs' := by
  have b1 := runCalls_both (e := e) (w := w) cs hf (.new kind name port)
  unfold both at b1
  split at b1
  rotate_left
  · next x t y t' h3 h4 => rw [show { client := Client.init kind name port, hist := [] } = newClient kind name port from rfl, h1] at h3; cases h3
  · exact b1.elim
  next a t0 b t' h3 h4 =>
  rw [show { client := Client.init kind name port, hist := [] } = newClient kind name port from rfl, h1] at h3
  cases h3
  obtain ⟨hres, hb⟩ := b1
  have b2 := (sendMail_simC (e := e) (w := w) m hm).run t t' hb
  unfold both at b2
  split at b2
  rotate_left
  · next x t y t' h5 h6 => rw [h2] at h5; cases h5
  · exact b2.elim
  next a u0 b' u' h5 h6 =>
  rw [h2] at h5
  cases h5
  obtain ⟨hcode, hu⟩ := b2
  rw [gen_sendMail] at h6
  rw [gen_runCalls] at h4
  refine ⟨asPosix e, b, t', b', u', h4, h6, hres, hcode, ⟨hb.same, hb.connected, hb.response, hb.options, beside_bio hb⟩,
    ⟨hu.same, hu.connected, hu.response, hu.options, beside_bio hu⟩, hb.spoken, fun evs' he => ?_⟩
  obtain ⟨y, hy⟩ := grows t'.hist evs'
  have hh : u.hist = t.hist ++ y := by rw [← hu.hist.1, he, hy, hb.hist.1]
  refine ⟨y, hh, ?_⟩
  have := hu.spoken
  rw [hh, he, spoken_append, spoken_append, hb.spoken] at this
  exact List.append_cancel_left this

/-- One more mail after any calls. The POSIX run before it, the mail itself, and what happens during the mail. -/
theorem C84_each_mail_partial (e : Env) (w : WinCalls) (kind : Kind) (name : Bytes) (port : Nat) (cs : List Call) (hf : ∀ c ∈ cs, CallFits c) (m : Message) (hm : MessageFits m)
    (rs : List CallRes) (t u : St) (code : Int) (h1 : Gen.runCalls (windows w) cs e (newClient kind name port) = (.ok rs, t)) (h2 : Gen.sendMail (windows w) m e t = (.ok code, u)) :
    ∃ e' rs' t' code' u', runCalls cs e' (newClient kind name port) = (.ok rs', t') ∧ sendMail m e' t' = (.ok code', u') ∧ SameResults rs rs' ∧ SameCode code code' ∧
      SameView t.client t'.client ∧ SameView u.client u'.client ∧
      ∀ evs', u'.hist = t'.hist ++ evs' → ∃ evs, u.hist = t.hist ++ evs ∧ spoken evs = spoken evs' := by
  obtain ⟨e', rs', t', code', u', h3, h4, h5, h6, h7, h8, -, h9⟩ := each_mail e w kind name port cs hf m hm rs t u code h1 h2
  exact ⟨e', rs', t', code', u', h3, h4, h5, h6, h7, h8, h9⟩

/-! ### What follows on Windows -/

/-- **C29 on Windows.** `sendMail` returns 0 on Windows only if the dialogue of the call delivered the message, under the conditions of `C29_zero_means_delivered_partial`. -/
theorem C84_zero_means_delivered_partial (e : Env) (w : WinCalls) (kind : Kind) (name : Bytes) (port : Nat) (cs : List Call) (hf : ∀ c ∈ cs, CallFits c) (m : Message) (hm : MessageFits m)
    (hn : NulFree m) (rs : List CallRes) (t u : St) (h1 : Gen.runCalls (windows w) cs e (newClient kind name port) = (.ok rs, t)) (h2 : Gen.sendMail (windows w) m e t = (.ok 0, u)) :
    ∃ evs opening rest, u.hist = t.hist ++ evs ∧ spoken evs = opening ++ rest ∧ contents opening = [] ∧ (t.client.isConnected = true → opening = []) ∧
      (AnsweredZero rest ∨ WroteToZero rest ∨ ¬ NoShortWrites rest ∨
        ∃ ch files, Delivered ch m files t.client.batch (conversation rest) ∧ (elems m.attachments).length = files.length ∧
          ∀ p ∈ (elems m.attachments).zip files, .readFile p.1.filename p.2 ∈ rest) := by
  obtain ⟨e', rs', t', code', u', h3, h4, -, hc, hv, -, hx⟩ := C84_each_mail_partial e w kind name port cs hf m hm rs t u 0 h1 h2
  have hc : code' = 0 := by
    rcases hc with h | ⟨h | h | h, -⟩ | ⟨h, -⟩
    · exact h.symm
    all_goals cases h
  subst hc
  obtain ⟨opening, evs, h5, h6, h7, h8⟩ := C29_zero_means_delivered_partial e' m hn t' u' h4
  obtain ⟨evs0, h9, h10⟩ := hx (opening ++ evs) (by rw [h5, List.append_assoc])
  refine ⟨evs0, spoken opening, spoken evs, h9, by rw [h10, spoken_append], by rw [contents_spoken, h6], fun hcon => by rw [h7 (hv.connected ▸ hcon)]; rfl, ?_⟩
  rcases h8 with ⟨d, h⟩ | ⟨k, d, n, h⟩ | h | ⟨ch, files, h, h', h''⟩
  · exact .inl ⟨d, answered_spoken h⟩
  · exact .inr (.inl ⟨k, d, n, rawSend_spoken.mpr h⟩)
  · refine .inr (.inr (.inl fun hs => h fun k c d n hmem => ?_))
    exact hs k (chanKind c) d n (mem_spoken hmem rfl)
  · refine .inr (.inr (.inr ⟨chanKind ch, files, ?_, h', fun p hp => readFile_spoken (h'' p hp)⟩))
    rw [conversation_spoken, hv.settings.batch]
    exact delivered_spoken h

theorem life_runCalls (cs : List Call) (env : Env) (s : St) : ∃ x, (life cs env s).2.hist = (runCalls cs env s).2.hist ++ x := by
  unfold life
  show ∃ x, (M.bind _ _ env s).2.hist = _
  unfold M.bind
  cases h : runCalls cs env s with
  | mk r t =>
    cases r with
    | stop x => exact ⟨[], by simp⟩
    | ok rs =>
      obtain ⟨evs, he, -⟩ := C54_lock_step_partial env t [] (fun _ => by simp)
      refine ⟨evs, ?_⟩
      dsimp only
      rw [← he]
      show (M.bind destroy (fun _ => pure rs) env t).2.hist = (M.bind (pure []) _ env t).2.hist
      unfold M.bind
      dsimp only [pure]
      show _ = (M.bind destroy (fun _ => pure []) env t).2.hist
      unfold M.bind
      cases hd : destroy env t with
      | mk r' t' => cases r' <;> rfl

/-- **C38 on Windows.** Whatever is called (except switching to the base send commands) and whatever happens: all commands the forced client sends in clear are public ones. -/
theorem C84_forced_public_partial (e : Env) (w : WinCalls) (name : Bytes) (port : Nat) (cs : List Call) (hf : ∀ c ∈ cs, CallFits c) (hk : .setKeepUsingBaseSendCommands true ∉ cs)
    (fd : Int) (d : Bytes) (r : SendRes) (h : .send .cmd (.raw fd) d r ∈ (Gen.runCalls (windows w) cs e (newClient .forced name port)).2.hist) : PublicOf cs d := by
  obtain ⟨e', -, -, -, hs⟩ := C84_same_dialogue_partial e w .forced name port cs hf
  have := rawSend_spoken.mp (hs ▸ rawSend_spoken.mpr h)
  obtain ⟨x, hx⟩ := life_runCalls cs e' (newClient .forced name port)
  refine C38_forced e' name port cs hk fd d r ?_
  show _ ∈ (life cs e' (newClient .forced name port)).2.hist
  rw [hx]
  exact List.mem_append_left _ this

/-- **C82 on Windows.** The negative results `sendMail` can have on Windows when no reply is garbled: no others than on POSIX, except those of the steps that Windows adds (-4, -5 and -53). -/
theorem C84_codes_partial (e : Env) (w : WinCalls) (kind : Kind) (name : Bytes) (port : Nat) (cs : List Call) (hf : ∀ c ∈ cs, CallFits c) (m : Message) (hm : MessageFits m)
    (rs : List CallRes) (t u : St) (code : Int) (h1 : Gen.runCalls (windows w) cs e (newClient kind name port) = (.ok rs, t)) (h2 : Gen.sendMail (windows w) m e t = (.ok code, u))
    (hc : code < 0) (hg : ∀ evs, u.hist = t.hist ++ evs → ¬ Garbled (spoken evs)) :
    code ∈ [-1, -2, -3, -6, -7, -8, -9, -10, -20, -21, -30, -31, -51, -52, -54, -55, -56, -57, -58, -59, -60, -81, -82, -84, -85, -86, -87, -88, -89, -90, -91, -93, -94, -95, -96, -97, -98, -99] ∨
      code ∈ [-4, -5, -53] := by
  obtain ⟨e', rs', t', code', u', h3, h4, -, hcode, -, -, hx⟩ := C84_each_mail_partial e w kind name port cs hf m hm rs t u code h1 h2
  rcases hcode with h | ⟨h | h | h, -⟩ | ⟨h, -⟩
  · subst h
    refine .inl (C82_codes_never_returned e' m t' u' _ h4 hc fun evs' he hgar => ?_)
    obtain ⟨evs, h5, h6⟩ := hx evs' he
    exact hg evs h5 (h6 ▸ garbled_spoken hgar)
  all_goals subst h; first | exact .inl (by decide) | exact .inr (by decide)

/-! ### Lines of 2 GiB -/

theorem windows_too_long (w : WinCalls) (e : Env) (s : St) (hr : (s.client.ptrRaw || s.client.kind == .smtp) = true) (k : SendKind) (d : Bytes) (err : Int) (hd : 2 ^ 31 ≤ (cstr d).length) :
    Gen.sendPtr (windows w) k d err e s = (.ok err, s) := by
  unfold Gen.sendPtr Gen.sendPtrWith
  refine (run_bind (a := s.client.ptrRaw) (t := s) rfl).trans ((run_bind (a := s.client.kind) (t := s) rfl).trans ?_)
  rw [if_pos hr]
  show winSendRaw _ _ _ _ _ _ = _
  unfold winSendRaw
  rw [if_pos (by omega)]
  rfl

/-- Where the statement fails (1): on Windows a To or Cc header of 2 GiB or more is left out in clear. Nothing is sent, nothing is reported, the session goes on (the result of
`addMailHeader` is ignored). -/
theorem C84_header_left_out (w : WinCalls) (e : Env) (s : St) (l : Log) (hl : s.client.log = some l) (ho : l.size = l.cap ∧ l.content.length < l.cap)
    (hr : s.client.kind = .smtp) (field : Bytes) (as : List MessageAddress) (ha : as ≠ [])
    (hd : 2 ^ 31 ≤ (cstr (headerLine field (generateHeaderAddressValues as))).length) :
    ∃ t, Gen.addressHeader (windows w) field { ptr := some as, count := as.length } e s = (.ok (), t) ∧ t.hist = s.hist ∧ t.client.isConnected = s.client.isConnected ∧ t.client.sock = s.client.sock := by
  have hlog : Logging s := ⟨l, hl, ho⟩
  obtain ⟨l', m', -, h1⟩ := addLog_ok e (headerLine field (generateHeaderAddressValues as)) b!"c" hlog
  refine ⟨{ s with client := { s.client with log := some l' }, mem := m' }, ?_, rfl, rfl, rfl⟩
  · unfold Gen.addressHeader
    rw [if_pos (by simpa [List.length_pos_iff] using ha)]
    refine (run_bind (a := as) (t := s) ?_).trans ((run_bind (a := -92) ((run_bind h1).trans (windows_too_long w e _ ?_ _ _ _ hd))).trans rfl)
    · unfold arrElems
      simp
      rfl
    · show (_ || s.client.kind == Kind.smtp) = true
      rw [hr]
      simp

/-- Where the statement fails (2): any other line of that size gives the code of its step, but neither is anything sent nor is the session closed. -/
theorem C84_session_left_open (w : WinCalls) (e : Env) (s : St) (hr : s.client.kind = .smtp) (d : Bytes) (err : Int) (hd : 2 ^ 31 ≤ (cstr d).length) :
    Gen.sendPtr (windows w) .content d err e s = (.ok err, s) := windows_too_long w e s (by rw [hr]; simp) .content d err hd

/-- On POSIX a line that gives the code of its step ends the session. -/
theorem C84_posix_closes (env : Env) (s t : St) (d : Bytes) (err code : Int) (h : sendPtr .content d err env s = (.ok code, t)) (hc : code ≠ 0) :
    code = err ∧ t.client.isConnected = false ∧ t.client.sock = 0 := by
  have := sendPtr_out (env := env) .content d err s
  unfold wp at this
  rw [h] at this
  rcases this with ⟨h0, -⟩ | ⟨h1, h2, -⟩
  · exact absurd h0 hc
  · exact ⟨h1, h2.2, h2.1⟩

/-- Everything that Windows adds works. -/
def fineCalls : WinCalls := { step := fun _ => .connect, texts := fun _ => [], sock := fun _ => -1, stopFails := fun _ => none, lastError := fun _ => 0 }

/-! ### The opening in one step and in four -/

theorem addLogs_says (e : Env) (ts : List Bytes) (hts : ∀ x ∈ ts, 0 ∉ x) : ∀ (s : St) (l : Log), s.client.log = some l → LogOk l →
    ∃ l' m, LogOk l' ∧ l'.content = l.content ++ clientLog ts ∧ addLogs ts e s = (.ok (), { s with client := { s.client with log := some l' }, mem := m }) := by
  induction ts with
  | nil => exact fun s l hl ho => ⟨l, s.mem, ho, by simp [clientLog, logText], by unfold addLogs; rw [← hl]; rfl⟩
  | cons i ts ih =>
    intro s l hl ho
    obtain ⟨l1, e1, o1, c1, -⟩ := log_add_ok ho i b!"c"
    have h1 : addLog i b!"c" e s = (.ok (), { s with client := { s.client with log := some l1 }, mem := s.mem ++ [.log (l.grows i b!"c") l1.content] }) := by
      simp only [addLog, bind, M.bind, M.gets, hl, e1]
      rfl
    obtain ⟨l2, m2, o2, c2, h2⟩ := ih (fun x hx => hts x (List.mem_cons_of_mem _ hx)) { s with client := { s.client with log := some l1 }, mem := s.mem ++ [.log (l.grows i b!"c") l1.content] } l1 rfl o1
    refine ⟨l2, m2, o2, ?_, ?_⟩
    · rw [c2, c1]
      simp [clientLog, logText, logEntry, logItem, cstr_eq_self (hts i (List.mem_cons_self ..)), escapeCRLF_eq]
    · unfold addLogs
      rw [run_bind h1, h2]

/-- The opening of the dialogue model (`winInit`, one step) does whatever the detailed model of the opening does (`initializeSessionWin`, C66, C81, C83): for every run of the latter there are
answers with which the former has the same result, records the same error number, leaves the same number as socket and writes the same log. -/
theorem C84_opening_agrees (env : WinEnv) (s s' : WinSt) (name : Bytes) (code : Int) (hn : s.client.base.serverName = some name) (hz : 0 ∉ name)
    (ht : ∀ n t, env.wsaText n = some t → 0 ∉ t) (hr : initializeSessionWin env s = (.ok code, s')) (hs : code = 0 → 0 ≤ s'.client.base.sock) (e : Env) (t : St) (hc : t.client = s.client.base) :
    ∃ answer w, let run := winInit w { e with socket := fun _ => answer } t
      run.1 = .ok code ∧ run.2.hist = t.hist ++ [.socket answer] ∧ (code = 0 ↔ answer = .val s'.client.base.sock.toNat) ∧
      run.2.client.lastErrNo = s'.client.base.lastErrNo ∧ run.2.client.sock = s'.client.base.sock ∧
      ∃ l l', run.2.client.log = some l ∧ s'.client.base.log = some l' ∧ l.content = l'.content := by
  obtain ⟨code', s1, evs, num, texts, l', h1, -, ho, he, hl, hcon⟩ := C83_opening_reports env s name hn hz ht
  rw [hr] at h1
  cases h1
  have kept : ∀ {x : Int}, num = some x → s'.client.base.lastErrNo = x := fun h => by rw [he, h]; rfl
  have dec : ∀ n : Int, 0 ∉ decimalText n := fun n => intDec_eq n ▸ intDec_noNul n
  have fails : ∀ {m r n}, (∀ t, m = some t → 0 ∉ t) → ∀ x ∈ failureTexts m r n, 0 ∉ x := by
    intro m r n hm x hx
    unfold failureTexts at hx
    rcases List.mem_append.mp hx with h | h
    · exact hm x (by simpa using h)
    · split at h
      · cases h
      · simp at h
        subst h
        simp [dec]
  have trying : 0 ∉ b!"Trying to connect to " ++ name ++ b!" on port " ++ decimalText s.client.base.port := by simp [hz, dec]
  -- a failed step
  have failed : ∀ (st : WinStep) (x : Int), code = st.code → num = some x → (∀ y ∈ texts, 0 ∉ y) → ∃ answer w, let run := winInit w { e with socket := fun _ => answer } t
      run.1 = .ok code ∧ run.2.hist = t.hist ++ [.socket answer] ∧ (code = 0 ↔ answer = .val s'.client.base.sock.toNat) ∧
      run.2.client.lastErrNo = s'.client.base.lastErrNo ∧ run.2.client.sock = s'.client.base.sock ∧
      ∃ l l', run.2.client.log = some l ∧ s'.client.base.log = some l' ∧ l.content = l'.content := by
    intro st x hcode hnum htexts
    obtain ⟨l2, m2, -, c2, h2⟩ := addLogs_says { e with socket := fun _ => .err x } texts htexts
      { t with client := { t.client with log := some .fresh, sock := s'.client.base.sock, lastErrNo := x }, hist := t.hist ++ [.socket (.err x)], mem := t.mem ++ [.freshLog] } .fresh rfl logOk_fresh
    refine ⟨.err x, { step := fun _ => st, texts := fun _ => texts, sock := fun _ => s'.client.base.sock, stopFails := fun _ => none, lastError := fun _ => 0 }, ?_⟩
    have h3 : winInit { step := fun _ => st, texts := fun _ => texts, sock := fun _ => s'.client.base.sock, stopFails := fun _ => none, lastError := fun _ => 0 } { e with socket := fun _ => .err x } t =
        (.ok st.code, { t with client := { t.client with log := some l2, sock := s'.client.base.sock, lastErrNo := x }, hist := t.hist ++ [.socket (.err x)], mem := m2 }) := by
      unfold winInit
      refine (run_bind (a := ()) rfl).trans ((run_bind (a := st) rfl).trans ((run_bind (a := texts) rfl).trans ((run_bind (a := s'.client.base.sock) rfl).trans ((run_bind (a := .err x) rfl).trans
        ((run_bind (a := ()) rfl).trans ((run_bind (a := ()) rfl).trans ((run_bind h2).trans rfl)))))))
    dsimp only
    rw [h3]
    refine ⟨by rw [hcode], rfl, ?_, (kept hnum).symm, rfl, l2, l', rfl, hl, ?_⟩
    · rw [hcode]
      constructor
      · intro h; exact absurd h (code_ne st)
      · intro h; cases h
    · rw [c2, hcon]
      rfl
  cases ho with
  | noWinsock r h => exact failed .startup r rfl rfl fun y hy => by simp at hy; subst hy; simp [dec]
  | noAddress r c evs h e => exact failed .address _ rfl rfl (fails (ht _))
  | noSocket c e made evs k hk em _ ee => exact failed .socket _ rfl rfl (fails (ht _))
  | noConnection c e made evs k hk em _ ee =>
    refine failed .connect _ rfl rfl fun y hy => ?_
    rcases List.mem_cons.mp hy with rfl | hy
    · exact trying
    · exact fails (ht _) y hy
  | connected k hk =>
    have hpos := hs rfl
    obtain ⟨l2, e2, -, c2, -⟩ := log_add_ok logOk_fresh (b!"Trying to connect to " ++ name ++ b!" on port " ++ natDec s.client.base.port) b!"c"
    refine ⟨.val s'.client.base.sock.toNat, fineCalls, ?_⟩
    have hlog : addLog (b!"Trying to connect to " ++ name ++ b!" on port " ++ natDec s.client.base.port) b!"c" { e with socket := fun _ => .val s'.client.base.sock.toNat }
        { t with client := { t.client with log := some .fresh, sock := (s'.client.base.sock.toNat : Int) }, hist := t.hist ++ [.socket (.val s'.client.base.sock.toNat)], mem := t.mem ++ [.freshLog] } =
        (.ok (), { t with client := { t.client with log := some l2, sock := (s'.client.base.sock.toNat : Int) }, hist := t.hist ++ [.socket (.val s'.client.base.sock.toNat)],
                          mem := t.mem ++ [.freshLog] ++ [.log (Log.fresh.grows (b!"Trying to connect to " ++ name ++ b!" on port " ++ natDec s.client.base.port) b!"c") l2.content] }) := by
      simp only [addLog, bind, M.bind, M.gets, e2]
      rfl
    have h3 : winInit fineCalls { e with socket := fun _ => .val s'.client.base.sock.toNat } t =
        (.ok 0, { t with client := { t.client with log := some l2, sock := (s'.client.base.sock.toNat : Int) }, hist := t.hist ++ [.socket (.val s'.client.base.sock.toNat)],
                         mem := t.mem ++ [.freshLog] ++ [.log (Log.fresh.grows (b!"Trying to connect to " ++ name ++ b!" on port " ++ natDec s.client.base.port) b!"c") l2.content] }) := by
      unfold winInit
      refine (run_bind (a := ()) rfl).trans ((run_bind (a := _) rfl).trans ((run_bind (a := _) rfl).trans ((run_bind (a := _) rfl).trans ((run_bind (a := .val s'.client.base.sock.toNat) rfl).trans
        ((run_bind (a := ()) rfl).trans ((run_bind (a := some name) (t := { t with client := { t.client with log := some .fresh, sock := (s'.client.base.sock.toNat : Int) }, hist := t.hist ++ [.socket (.val s'.client.base.sock.toNat)], mem := t.mem ++ [.freshLog] }) ?_).trans ((run_bind (a := s.client.base.port) (t := { t with client := { t.client with log := some .fresh, sock := (s'.client.base.sock.toNat : Int) }, hist := t.hist ++ [.socket (.val s'.client.base.sock.toNat)], mem := t.mem ++ [.freshLog] }) ?_).trans ((run_bind (a := ()) hlog).trans rfl))))))))
      · show (Res.ok t.client.serverName, _) = _
        rw [hc, hn]
      · show (Res.ok t.client.port, _) = _
        rw [hc]
    dsimp only
    rw [h3]
    refine ⟨rfl, rfl, by simp, ?_, by simp only; omega, l2, l', rfl, hl, ?_⟩
    · rw [he, ← hc]; rfl
    · rw [c2, hcon, natDec_eq]
      generalize b!"Trying to connect to " ++ name ++ b!" on port " ++ decimalText s.client.base.port = i at trying ⊢
      simp [clientLog, logText, logEntry, logItem, cstr_eq_self trying, escapeCRLF_eq, Log.fresh]

/-- A connection on Windows as C83 has it, in one step. -/
example : (let r := initializeSessionWin winFine winNew
    (r.1, r.2.client.base.sock) = (.ok 0, 300)) ∧
    (let r := winInit fineCalls { scripted [] with socket := fun _ => .val 300 } { client := winNew.client.base, hist := [] }
    (r.1, r.2.client.sock) = (.ok 0, 300)) := by decide +kernel

/-! ### Runs -/

theorem mail_fits : MessageFits mail where
  sender := by show ∀ t ∈ mailFormats mail.from, t.length < _; decide +kernel
  recipients := by
    intro l hl as ha a hm
    have : ∀ l ∈ [mail.to, mail.cc, mail.bcc], ∀ a ∈ l.ptr.getD [], (rcptTo a).length < 2 ^ 31 := by decide +kernel
    exact this l hl a (by rw [ha]; exact hm)
  fromLine := by show _ < _; decide +kernel
  toLine := by
    intro as h
    cases h
    show _ < _
    decide +kernel
  ccLine := by
    intro as h
    cases h <;> (show _ < _; decide +kernel)
  subject := by show _ < _; decide +kernel

/-- Two mails on Windows, the second on a new connection. The hypotheses of the theorems above are met. -/
example : (∀ c ∈ [Call.sendMail mail, .sendMail mail], CallFits c) ∧
    (let replies := clear [b!"250 ok\r\n", b!"250 ok\r\n", b!"250 ok\r\n", b!"354 go\r\n", b!"250 ok\r\n"]
     let env := scripted ([.data b!"220 hi\r\n"] ++ replies ++ [.data b!"220 hi\r\n"] ++ replies)
     (Gen.runCalls (windows fineCalls) [.sendMail mail, .sendMail mail] env (newClient .smtp b!"mail.org" 25)).1 = .ok [.returned 0, .returned 0]) :=
  ⟨fun c hc => by simp at hc; subst hc; exact mail_fits, by decide +kernel⟩

/-- A server that cannot be reached: -2 on Windows, -1 in the POSIX world of the theorem. -/
example : (let env := { scripted [] with socket := fun _ => .err 10061 }
    (Gen.runCalls (windows fineCalls) [.sendMail mail] env (newClient .smtp b!"mail.org" 25)).1 = .ok [.returned (-2)] ∧
    (runCalls [.sendMail mail] (asPosix env) (newClient .smtp b!"mail.org" 25)).1 = .ok [.returned (-1)]) := by decide +kernel

end Verif.Props
