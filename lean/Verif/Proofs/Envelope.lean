import Verif.Spec.Envelope
import Verif.Proofs.Bcc
import Verif.Proofs.Deliver
import Verif.Proofs.Errors
import Verif.Spec.Script
/-!
# C86: what is said before DATA depends on the addresses only
-/
namespace Verif.Proofs
open Verif Verif.Model Verif.Spec

variable {env : Env} {α β : Type} {D : Hist → Prop} {s0 s : St}

/-- The two programs do the same, or they do the same since `s0` up to a moment with `D`. -/
def ForkAt (env : Env) (D : Hist → Prop) (s0 : St) (m m' : M α) (s : St) : Prop :=
  m env s = m' env s ∨ ∃ shared rest rest', (m env s).2.hist = s0.hist ++ shared ++ rest ∧ (m' env s).2.hist = s0.hist ++ shared ++ rest' ∧ D shared

theorem fork_refl {m : M α} : ForkAt env D s0 m m s := .inl rfl

theorem fork_bind {a : M β} {f g : β → M α} (h : wp env a (fun x s' => ForkAt env D s0 (f x) (g x) s') (fun _ _ => True) s) : ForkAt env D s0 (a >>= f) (a >>= g) s := by
  show ForkAt env D s0 (M.bind a f) (M.bind a g) s
  unfold ForkAt M.bind
  unfold wp at h
  cases ha : a env s with
  | mk r t =>
    rw [ha] at h
    cases r with
    | ok x => exact h
    | stop e => exact .inl rfl

theorem ext_run {m : M α} (h : Steps env Ext m) (s : St) : Ext s (m env s).2 := h.state s

theorem fork_bind2 {a a' : M β} {f g : β → M α} (h : ForkAt env D s0 a a' s) (hp : wp env a (fun x s' => ForkAt env D s0 (f x) (g x) s') (fun _ _ => True) s)
    (hf : ∀ x, Steps env Ext (f x)) (hg : ∀ x, Steps env Ext (g x)) : ForkAt env D s0 (a >>= f) (a' >>= g) s := by
  rcases h with h | ⟨shared, rest, rest', h1, h2, h3⟩
  · have : (a' >>= g) env s = (a >>= g) env s := by
      show M.bind a' g env s = M.bind a g env s
      unfold M.bind
      rw [h]
    have key := fork_bind hp
    unfold ForkAt at key ⊢
    rw [this]
    exact key
  · have grow : ∀ (b : M β) (k : β → M α), (∀ x, Steps env Ext (k x)) → Ext (b env s).2 ((b >>= k) env s).2 := by
      intro b k hk
      show Ext _ (M.bind b k env s).2
      unfold M.bind
      cases b env s with
      | mk r t =>
        cases r with
        | ok x => exact ext_run (hk x) t
        | stop e => exact .same rfl
    obtain ⟨x, hx⟩ := grow a f hf
    obtain ⟨y, hy⟩ := grow a' g hg
    exact .inr ⟨shared, rest ++ x, rest' ++ y, by rw [hx, h1]; simp, by rw [hy, h2]; simp, h3⟩

theorem fork_cut {m m' : M α} {shared : Hist} (hs : s.hist = s0.hist ++ shared) (hD : D shared) (h : Steps env Ext m) (h' : Steps env Ext m') : ForkAt env D s0 m m' s := by
  obtain ⟨x, hx⟩ := ext_run h s
  obtain ⟨y, hy⟩ := ext_run h' s
  exact .inr ⟨shared, x, y, by rw [hx, hs], by rw [hy, hs], hD⟩

/-! ### The recipients -/

theorem addMailRecipients_emails : ∀ (l l' : List MessageAddress) (r : Int), l.map (·.email) = l'.map (·.email) → addMailRecipients r l = addMailRecipients r l'
  | [], [], _, _ => rfl
  | [], _ :: _, _, h => by cases h
  | _ :: _, [], _, h => by cases h
  | a :: l, b :: l', r, h => by
    rw [List.map_cons, List.map_cons, List.cons.injEq] at h
    have hr : rcptTo a = rcptTo b := by unfold rcptTo; rw [h.1]
    unfold addMailRecipients
    rw [hr]
    congr 1; funext _; congr 1; funext code
    exact addMailRecipients_emails l l' _ h.2

theorem list_emails {a b : Arr MessageAddress} (h : emails a = emails b) (k : Int → M Int) :
    (do let code ← addMailRecipients 250 (← arrElems a); k code) = (do let code ← addMailRecipients 250 (← arrElems b); k code) ∧ a.ptr.isNone = b.ptr.isNone := by
  obtain ⟨p, n⟩ := a
  obtain ⟨q, n'⟩ := b
  unfold emails at h
  rw [Arr.mk.injEq] at h
  obtain ⟨h1, rfl⟩ := h
  dsimp only at h1
  cases p with
  | none => cases q with
    | none => exact ⟨rfl, rfl⟩
    | some q => cases h1
  | some p => cases q with
    | none => cases h1
    | some q =>
      refine ⟨?_, rfl⟩
      rw [Option.map_some, Option.map_some, Option.some.injEq] at h1
      have hl : p.length = q.length := by simpa using congrArg List.length h1
      unfold arrElems
      dsimp only
      rw [hl]
      split
      · show (addMailRecipients 250 (p.take n) >>= k) = (addMailRecipients 250 (q.take n) >>= k)
        rw [addMailRecipients_emails (p.take n) (q.take n) 250 (by rw [List.map_take, List.map_take, h1])]
      · rfl

theorem recipientsLoop_emails : ∀ (l l' : List (Arr MessageAddress)), l.map emails = l'.map emails → recipientsLoop l = recipientsLoop l'
  | [], [], _ => rfl
  | [], _ :: _, h => by cases h
  | _ :: _, [], h => by cases h
  | a :: l, b :: l', h => by
    rw [List.map_cons, List.map_cons, List.cons.injEq] at h
    unfold recipientsLoop
    rw [recipientsLoop_emails l l' h.2, (list_emails h.1 fun _ => pure 0).2, (list_emails h.1 _).1]

/-! ### The two runs -/

theorem endsAnswered_of {d : Bytes} {code : Int} {s0 s s' : St} (h0 : Ext s0 s) (h : Replied d code s s') :
    ∃ shared, s'.hist = s0.hist ++ shared ∧ EndsAnswered shared (cstr d) code := by
  obtain ⟨n, t, ⟨-, evs, h1, h2, rfl⟩, h3⟩ := h
  obtain ⟨x, hx⟩ := h0
  refine ⟨x ++ .send .cmd (chan s.client) (cstr d) (.sent n) :: evs, ?_, x, _, n, evs, rfl, fun e he hs => ?_, h3⟩
  · rw [h1]
    show (s.hist ++ [_]) ++ evs = _
    rw [hx]
    simp
  · have := h2 e he
    cases e <;> first | exact hs | exact this

/-- Where the runs can part: MAIL FROM with the address alone was refused with 501, and then the names of the senders differ, or DATA was agreed to, with 354 or with a reply that reads as 0. -/
def Parting (m m' : Message) (h : Hist) : Prop :=
  (m.from.displayName ≠ m'.from.displayName ∧ EndsAnswered h (cstr (b!"MAIL FROM: <" ++ m.from.email ++ b!">\r\n")) 501) ∨ EndsAnswered h b!"DATA\r\n" 354 ∨ EndsAnswered h b!"DATA\r\n" 0

theorem fork_mailFrom {m m' : Message} (hm : m.from.email = m'.from.email) (h0 : Ext s0 s) :
    ForkAt env (Parting m m') s0 (mailFromLoop 0 (mailFormats m.from)) (mailFromLoop 0 (mailFormats m'.from)) s := by
  by_cases hname : m.from.displayName = m'.from.displayName
  · have : mailFormats m.from = mailFormats m'.from := by unfold mailFormats; rw [hm, hname]
    rw [this]; exact fork_refl
  unfold mailFormats
  rw [← hm]
  unfold mailFromLoop
  refine fork_bind (wp_mono ((addLog_steps (R := Ext) _ _).run s) (fun _ s1 h1 => ?_) fun _ _ _ => trivial)
  refine fork_bind (wp_mono (sendPtrFb_out _ (-85) (-86) s1 (by decide)) (fun code s2 h2 => ?_) fun _ _ _ => trivial)
  by_cases h250 : code = 250
  · rw [if_pos h250, if_pos h250]; exact fork_refl
  · rw [if_neg h250, if_neg h250]
    by_cases h501 : code = 501
    · subst h501
      rw [if_neg (by decide), if_neg (by decide)]
      rcases h2 with h2 | ⟨h2 | h2, -⟩
      · obtain ⟨shared, h3, h4⟩ := endsAnswered_of (h0.trans h1) h2
        have grow : ∀ (l : List Bytes) c, Steps env Ext (mailFromLoop c l) := by
          intro l
          induction l with
          | nil => intro c; unfold mailFromLoop; steps []
          | cons f l ih => intro c; unfold mailFromLoop; steps [addLog_steps, sendPtrFb_steps', ih]
        exact fork_cut h3 (.inl ⟨hname, h4⟩) (grow _ _) (grow _ _)
      · cases h2
      · cases h2
    · rw [if_pos h501, if_pos h501]; exact fork_refl

/-- After the header lines. -/
def afterHeaders (x : Message) (code : Int) : M Int :=
  if code ≠ 0 then pure code else do
    let code ← setMailBody x
    if code ≠ 0 then pure code
    else if ← M.gets (·.batch) then pure 0
    else do
      cleanup
      pure 0

/-- The header lines. -/
def sayHeaders (x : Message) : M Int := do
  let code ← addMailHeader b!"From" (fromHeaderValue x.from) (-91)
  if code ≠ 0 then pure code
  else do
    addressHeader b!"To" x.to
    addressHeader b!"Cc" x.cc
    addLog (subjectLine x.subject)
    let code ← sendPtr .content (subjectLine x.subject) (-93)
    if code ≠ 0 then pure code
    else do
      addLog contentTypeLine
      let code ← sendPtr .content contentTypeLine (-94)
      if code ≠ 0 then pure code else pure 0

theorem sendMailRest_split (x : Message) : sendMailRest x = addLog dataCmd >>= fun _ => sendPtrFb dataCmd (-89) (-90) >>= fun code =>
    if code ≠ 354 then afterHeaders x code else sayHeaders x >>= afterHeaders x := by
  unfold sendMailRest setMailHeaders sayHeaders afterHeaders
  simp only [M_bind_assoc, M_ite_bind, M_pure_bind]

theorem ext_afterHeaders (x : Message) (code : Int) : Steps env Ext (afterHeaders x code) := by
  unfold afterHeaders
  steps [setMailBody_steps, cleanup_steps]

theorem ext_sayHeaders (x : Message) : Steps env Ext (sayHeaders x) := by
  unfold sayHeaders addressHeader addMailHeader
  steps [addLog_steps, sendPtr_steps', arrElems_steps]

theorem ext_sendMailRest (x : Message) : Steps env Ext (sendMailRest x) := by
  rw [sendMailRest_split]
  steps [addLog_steps, sendPtrFb_steps', ext_afterHeaders, ext_sayHeaders]

theorem fork_rest {m m' : Message} (h0 : Ext s0 s) : ForkAt env (Parting m m') s0 (sendMailRest m) (sendMailRest m') s := by
  rw [sendMailRest_split, sendMailRest_split]
  refine fork_bind (wp_mono ((addLog_steps (R := Ext) _ _).run s) (fun _ s1 h1 => ?_) fun _ _ _ => trivial)
  refine fork_bind (wp_mono (sendPtrFb_out _ (-89) (-90) s1 (by decide)) (fun code s2 h2 => ?_) fun _ _ _ => trivial)
  have answered : code = 354 ∨ code = 0 → ∃ shared, s2.hist = s0.hist ++ shared ∧ Parting m m' shared := by
    intro hc
    rcases h2 with h2 | ⟨h2, -⟩
    · obtain ⟨shared, h3, h4⟩ := endsAnswered_of (h0.trans h1) h2
      refine ⟨shared, h3, .inr ?_⟩
      rcases hc with rfl | rfl
      · exact .inl h4
      · exact .inr h4
    · rcases h2 with rfl | rfl <;> rcases hc with hc | hc <;> cases hc
  by_cases h354 : code = 354
  · rw [if_neg (by simpa using h354), if_neg (by simpa using h354)]
    obtain ⟨shared, h3, h4⟩ := answered (.inl h354)
    exact fork_cut h3 h4 (.bind (ext_sayHeaders m) (ext_afterHeaders m)) (.bind (ext_sayHeaders m') (ext_afterHeaders m'))
  · rw [if_pos h354, if_pos h354]
    by_cases hz : code = 0
    · obtain ⟨shared, h3, h4⟩ := answered (.inr hz)
      exact fork_cut h3 h4 (ext_afterHeaders m code) (ext_afterHeaders m' code)
    · unfold afterHeaders
      rw [if_pos hz, if_pos hz]; exact fork_refl

theorem fork_recipients {m m' : Message} (hm : SameEnvelope m m') (h0 : Ext s0 s) :
    ForkAt env (Parting m m') s0 (setMailRecipients m) (setMailRecipients m') s := by
  have he : recipientsLoop [m.to, m.cc, m.bcc] = recipientsLoop [m'.to, m'.cc, m'.bcc] :=
    recipientsLoop_emails _ _ (by simp only [List.map_cons, List.map_nil, hm.to, hm.cc, hm.bcc])
  have grow : ∀ l : List (Arr MessageAddress), Steps env Ext (recipientsLoop l) := recipientsLoop_steps
  unfold setMailRecipients
  rw [he]
  refine fork_bind2 (fork_mailFrom hm.sender h0) ?_ (fun x => .ite (.pure _) (grow _)) (fun x => .ite (.pure _) (grow _))
  exact wp_mono ((mailFromLoop_steps (R := Ext) _ _).run s) (fun _ _ _ => fork_refl) fun _ _ _ => trivial

theorem fork_connected {m m' : Message} (hm : SameEnvelope m m') (h0 : Ext s0 s) :
    ForkAt env (Parting m m') s0 (sendMailConnected m) (sendMailConnected m') s := by
  unfold sendMailConnected
  refine fork_bind (s := s) ?_
  rw [wp_modify]
  have h0 : Ext s0 { s with client := { s.client with isConnected := true } } := h0
  refine fork_bind2 (fork_recipients hm h0) ?_ (fun x => .ite (.pure _) (ext_sendMailRest m)) (fun x => .ite (.pure _) (ext_sendMailRest m'))
  refine wp_mono ((setMailRecipients_steps (R := Ext) m).run _) (fun code s1 h1 => ?_) fun _ _ _ => trivial
  by_cases hc : code = 0
  · rw [if_neg (by simpa using hc), if_neg (by simpa using hc)]; exact fork_rest (h0.trans h1)
  · rw [if_pos hc, if_pos hc]; exact fork_refl

theorem fork_sendMail {m m' : Message} (hm : SameEnvelope m m') : ForkAt env (Parting m m') s (sendMail m) (sendMail m') s := by
  unfold sendMail
  refine fork_bind ?_
  rw [wp_gets]
  by_cases hc : s.client.isConnected = true
  · rw [if_pos hc, if_pos hc]; exact fork_connected hm (.same rfl)
  · rw [if_neg hc, if_neg hc]
    refine fork_bind (wp_mono ((establish_steps (R := Ext)).run s) (fun code s1 h1 => ?_) fun _ _ _ => trivial)
    by_cases hc : code = 0
    · rw [if_neg (by simpa using hc), if_neg (by simpa using hc)]; exact fork_connected hm h1
    · rw [if_pos hc, if_pos hc]; exact fork_refl

end Verif.Proofs
