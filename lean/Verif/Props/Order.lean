import Verif.Props.Delivery
import Verif.Proofs.Lists
/-!
# C30: content only after the server agreed
-/
namespace Verif.Props
open Verif Verif.Model Verif.Spec

/-- A command was answered by a text that reads as number 0. -/
def Zero (s s' : St) : Prop := ∃ d, Proofs.Ans d 0 s s'

theorem Zero.after {a b c : St} (h : Proofs.Ext a b) (h' : Zero b c) : Zero a c := by
  obtain ⟨d, h'⟩ := h'; exact ⟨d, h'.after h⟩
theorem Zero.before {a b c : St} (h : Zero a b) (h' : Proofs.Ext b c) : Zero a c := by
  obtain ⟨d, h⟩ := h; exact ⟨d, h.before h'⟩

theorem mailFromLoop_ans (env : Env) (fs : List Bytes) (last : Int) (hl : last ≠ 250) (s : St) :
    Proofs.post env (mailFromLoop last fs) (fun code s' =>
      (code = 250 → ∃ f ∈ fs, Proofs.Ans (cstr f) 250 s s') ∧ (code = 0 → Zero s s' ∨ (fs = [] ∧ last = 0))) s := by
  induction fs generalizing last s with
  | nil => exact ⟨fun h => absurd h hl, fun h => .inr ⟨rfl, h⟩⟩
  | cons f fs ih =>
    unfold mailFromLoop
    unfold Proofs.post
    rw [Proofs.wp_bind]
    refine Proofs.post_mono (Proofs.post_deaf (Proofs.addLog_steps _ _) s) fun _ s1 h1 => ?_
    rw [Proofs.wp_bind]
    refine Proofs.post_mono (Proofs.sendPtrFb_post _ _ _ s1 (by decide)) fun code s2 ⟨h2, hx⟩ => ?_
    rw [Proofs.wp_ite]
    refine ⟨fun hc => ?_, fun hc => ?_⟩
    · subst hc
      have h2 := h2.resolve_right (by decide)
      exact ⟨fun _ => ⟨f, by simp, h2.ans.after h1.ext⟩, fun h => absurd h (by decide)⟩
    · rw [Proofs.wp_ite]
      refine ⟨fun hn => ⟨fun h => absurd h hc, fun h => ?_⟩, fun hn => ?_⟩
      · subst h
        have h2 := h2.resolve_right (by decide)
        exact .inl ⟨_, h2.ans.after h1.ext⟩
      · have hn : code = 501 := Decidable.not_not.mp hn
        subst hn
        refine Proofs.post_mono (ih 501 (by decide) s2) fun code s3 ⟨h3, h4⟩ => ⟨fun h => ?_, fun h => ?_⟩
        · obtain ⟨g, hg, ha⟩ := h3 h
          exact ⟨g, by simp [hg], ha.after (h1.ext.trans hx)⟩
        · rcases h4 h with h4 | ⟨_, h4⟩
          · exact .inl (h4.after (h1.ext.trans hx))
          · exact absurd h4 (by decide)

theorem addMailRecipients_ans (env : Env) (l : List MessageAddress) (ret : Int) (s : St) :
    Proofs.post env (addMailRecipients ret l) (fun code s' =>
      (code = 250 → ret = 250 ∧ ∀ a ∈ l, Proofs.Ans (cstr (rcptTo a)) 250 s s') ∧ (code = 0 → ret = 0 ∨ Zero s s')) s := by
  induction l generalizing ret s with
  | nil => exact ⟨fun h => ⟨h, by simp⟩, fun h => .inl h⟩
  | cons a l ih =>
    unfold addMailRecipients
    unfold Proofs.post
    rw [Proofs.wp_bind]
    refine Proofs.post_mono (Proofs.post_deaf (Proofs.addLog_steps _ _) s) fun _ s1 h1 => ?_
    rw [Proofs.wp_bind]
    refine Proofs.post_mono (Proofs.sendPtrFb_post _ _ _ s1 (by decide)) fun code s2 ⟨h2, hx⟩ => ?_
    refine Proofs.post_mono (Proofs.post_and (ih _ s2) (Proofs.post_steps (R := Proofs.Ext) (Proofs.addMailRecipients_steps _ _) s2))
      fun code' s3 ⟨⟨h3, h4⟩, h5⟩ => ⟨fun h => ?_, fun h => ?_⟩
    · obtain ⟨hret, ha⟩ := h3 h
      by_cases hc : code = 250
      · subst hc
        have h2 := h2.resolve_right (by decide)
        simp only [ne_eq, not_true, if_false] at hret
        refine ⟨hret, fun b hb => ?_⟩
        rcases List.mem_cons.mp hb with rfl | hb
        · exact (h2.ans.after h1.ext).before h5
        · exact (ha b hb).after (h1.ext.trans hx)
      · rw [if_pos hc] at hret
        exact absurd hret hc
    · rcases h4 h with h4 | h4
      · by_cases hc : code = 250
        · rw [if_neg (by simpa using hc)] at h4
          exact .inl h4
        · rw [if_pos hc] at h4
          subst h4
          have h2 := h2.resolve_right (by decide)
          exact .inr ⟨_, (h2.ans.after h1.ext).before h5⟩
      · exact .inr (h4.after (h1.ext.trans hx))

theorem recipientsLoop_ans (env : Env) (l : List (Arr MessageAddress)) (s : St) :
    Proofs.post env (recipientsLoop l) (fun code s' => code = 0 → Zero s s' ∨
      ∀ a ∈ l.flatMap elems, Proofs.Ans (cstr (rcptTo a)) 250 s s') s := by
  induction l generalizing s with
  | nil => exact fun _ => .inr (by simp)
  | cons a l ih =>
    unfold recipientsLoop
    refine (Proofs.wp_ite ..).mpr ⟨fun hn => ?_, fun hn => ?_⟩
    · have he : elems a = [] := by
        unfold elems
        cases h : a.ptr with
        | none => simp
        | some l => simp [h] at hn
      refine Proofs.post_mono (ih s) fun code s' h hc => ?_
      rw [List.flatMap_cons, he]
      exact h hc
    · rw [Proofs.wp_bind]
      refine Proofs.post_mono (Proofs.arrElems_post a s) ?_
      rintro _ _ ⟨rfl, rfl, _⟩
      rw [Proofs.wp_bind]
      refine Proofs.post_mono (Proofs.post_and (addMailRecipients_ans env (elems a) 250 _)
        (Proofs.post_steps (R := Proofs.Ext) (Proofs.addMailRecipients_steps _ _) _)) fun code s1 ⟨⟨h1, h2⟩, hx⟩ => ?_
      refine (Proofs.wp_ite ..).mpr ⟨fun hc h => ?_, fun hc => ?_⟩
      · rcases h2 h with h2 | h2
        · exact absurd h2 (by decide)
        · exact .inl h2
      · obtain ⟨_, ha⟩ := h1 (Decidable.not_not.mp hc)
        refine Proofs.post_mono (Proofs.post_and (ih s1) (Proofs.post_steps (R := Proofs.Ext) (Proofs.recipientsLoop_steps _) _))
          fun code s2 ⟨h, hx'⟩ hc => ?_
        rcases h hc with h | h
        · exact .inl (h.after hx)
        · refine .inr fun b hb => ?_
          rw [List.flatMap_cons, List.mem_append] at hb
          rcases hb with hb | hb
          · exact (ha b hb).before hx'
          · exact (h b hb).after hx

/-- The server agreed to the sender and to every recipient of the message, in this history. -/
def EnvelopeAccepted (m : Message) (h : Hist) : Prop :=
  (∃ f ∈ senderForms m.from, Answered h f 250) ∧ ∀ a ∈ recipients m, Answered h (b!"RCPT TO: <" ++ a.email ++ b!">\r\n") 250

theorem setMailRecipients_ans (env : Env) (m : Message) (hm : NulFree m) (s : St) :
    Proofs.post env (setMailRecipients m) (fun code s' => code = 0 →
      ∃ evs, s'.hist = s.hist ++ evs ∧ (AnsweredZero evs ∨ EnvelopeAccepted m evs)) s := by
  have hz : ∀ s s', Zero s s' → ∃ evs, s'.hist = s.hist ++ evs ∧ (AnsweredZero evs ∨ EnvelopeAccepted m evs) := by
    rintro s s' ⟨d, evs, he, h⟩
    exact ⟨evs, he, .inl ⟨d, h⟩⟩
  unfold setMailRecipients
  unfold Proofs.post
  rw [Proofs.wp_bind]
  refine Proofs.post_mono (Proofs.post_and (mailFromLoop_ans env _ 0 (by decide) s)
    (Proofs.post_steps (R := Proofs.Ext) (Proofs.mailFromLoop_steps _ _) s)) fun code s1 ⟨⟨h1, h2⟩, hx⟩ => ?_
  refine (Proofs.wp_ite ..).mpr ⟨fun _ hc => ?_, fun hc => ?_⟩
  · rcases h2 hc with h | ⟨h, _⟩
    · exact hz _ _ h
    · exact absurd h (by simp [mailFormats])
  · obtain ⟨f, hf, ha⟩ := h1 (Decidable.not_not.mp hc)
    refine Proofs.post_mono (Proofs.post_and (recipientsLoop_ans env _ s1)
      (Proofs.post_steps (R := Proofs.Ext) (Proofs.recipientsLoop_steps _) _)) fun code s2 ⟨h, hx'⟩ hc => ?_
    rcases h hc with h | h
    · exact hz _ _ (h.after hx)
    · obtain ⟨evs, he, ha⟩ := ha.before hx'
      rw [Proofs.mailFormats_eq] at hf
      rw [Proofs.senderForms_nul (hm.addresses m.from (by simp)) f hf] at ha
      refine ⟨evs, he, .inr ⟨⟨f, hf, ha⟩, fun a hmem => ?_⟩⟩
      obtain ⟨evs', he', ha'⟩ := (h a (by simpa [recipients] using hmem)).after hx
      rw [he] at he'
      rw [← List.append_cancel_left he'] at ha'
      have hn := (hm.addresses a (by simp [hmem])).1
      rwa [rcptTo, Proofs.cstr_eq_self (by simp [hn])] at ha'

/-- Sends that may happen before the envelope is accepted: no content and not DATA. -/
def Early : SendKind → Bytes → Prop := fun k d => k = .cmd ∧ d ≠ b!"DATA\r\n"
/-- Sends that may happen before DATA is accepted: no content. -/
def Middle : SendKind → Bytes → Prop := fun k d => k = .cmd ∧ d = b!"DATA\r\n"

theorem setMailRecipients_early (env : Env) (m : Message) (hm : NulFree m) :
    Proofs.Steps env (Proofs.NewEvents (Proofs.Allowed Early)) (setMailRecipients m) := by
  have hf : ∀ f ∈ mailFormats m.from, Early .cmd (cstr f) := by
    intro f hf
    rw [Proofs.mailFormats_eq] at hf
    rw [Proofs.senderForms_nul (hm.addresses m.from (by simp)) f hf]
    simp only [senderForms, List.mem_cons, List.not_mem_nil, or_false] at hf
    rcases hf with rfl | rfl | rfl <;> exact ⟨rfl, by simp⟩
  have hr : ∀ a : MessageAddress, Early .cmd (cstr (rcptTo a)) := by
    intro a
    refine ⟨rfl, ?_⟩
    simp [rcptTo, cstr, List.takeWhile]
  have h1 : ∀ c l, (∀ f ∈ l, Early .cmd (cstr f)) → Proofs.Steps env (Proofs.NewEvents (Proofs.Allowed Early)) (mailFromLoop c l) := by
    intro c l hl
    induction l generalizing c with
    | nil => unfold mailFromLoop; steps []
    | cons f l ih =>
      have ih := fun c => ih c fun g hg => hl g (by simp [hg])
      have hs : ∀ e t, Proofs.Steps env (Proofs.NewEvents (Proofs.Allowed Early)) (sendPtrFb f e t) := fun e t =>
        Proofs.sendPtrFb_steps (fun _ _ _ => .one (hl f (by simp))) e t
      unfold mailFromLoop; steps [Proofs.addLog_steps, hs, ih]
  have h2 : ∀ c l, Proofs.Steps env (Proofs.NewEvents (Proofs.Allowed Early)) (addMailRecipients c l) := by
    intro c l
    induction l generalizing c with
    | nil => unfold addMailRecipients; steps []
    | cons a l ih =>
      have hs : ∀ e t, Proofs.Steps env (Proofs.NewEvents (Proofs.Allowed Early)) (sendPtrFb (rcptTo a) e t) := fun e t =>
        Proofs.sendPtrFb_steps (fun _ _ _ => .one (hr a)) e t
      unfold addMailRecipients; steps [Proofs.addLog_steps, hs, ih]
  have h3 : ∀ l, Proofs.Steps env (Proofs.NewEvents (Proofs.Allowed Early)) (recipientsLoop l) := by
    intro l
    induction l with
    | nil => unfold recipientsLoop; steps []
    | cons a l ih => unfold recipientsLoop; steps [Proofs.arrElems_steps, h2]
  unfold setMailRecipients
  steps [h1, h3, hf]

theorem header_ext (env : Env) (f v e) : Proofs.Steps env Proofs.Ext (addMailHeader f v e) := by
  unfold addMailHeader; steps [Proofs.addLog_steps, Proofs.sendPtr_steps']
theorem addresses_ext (env : Env) (f a) : Proofs.Steps env Proofs.Ext (addressHeader f a) := by
  unfold addressHeader; steps [header_ext, Proofs.arrElems_steps]

/-- The three phases of a mail transaction: before the envelope is accepted, before DATA is accepted, and after that. -/
def Phases (m : Message) (s s' : St) : Prop :=
  ∃ e1 e2 e3, s'.hist = s.hist ++ e1 ++ e2 ++ e3 ∧ (∀ e ∈ e1, Proofs.Allowed Early e) ∧ (∀ e ∈ e2, Proofs.Allowed Middle e) ∧
    (AnsweredZero e1 ∨ EnvelopeAccepted m e1 ∨ (e2 = [] ∧ e3 = [])) ∧
    (AnsweredZero e2 ∨ Answered e2 b!"DATA\r\n" 354 ∨ e3 = [])

theorem sendMailConnected_phases (env : Env) (m : Message) (hm : NulFree m) (s : St) :
    Proofs.wp env (sendMailConnected m) (fun _ s' => Phases m s s') (fun _ s' => Phases m s s') s := by
  unfold sendMailConnected
  rw [Proofs.wp_bind, Proofs.wp_modify]
  generalize hs0 : ({ s with client := { s.client with isConnected := true } } : St) = s0
  have hh : s0.hist = s.hist := by subst hs0; rfl
  clear hs0
  -- phase 1 alone
  have p1 : ∀ s', Proofs.NewEvents (Proofs.Allowed Early) s0 s' → Phases m s s' := by
    rintro s' ⟨e1, he, h1⟩
    exact ⟨e1, [], [], by rw [he, hh]; simp, h1, by simp, .inr (.inr ⟨rfl, rfl⟩), .inr (.inr rfl)⟩
  rw [Proofs.wp_bind]
  refine Proofs.wp_mono (Proofs.wp_and ((setMailRecipients_early env m hm).run s0) (setMailRecipients_ans env m hm s0)) ?_
    (fun _ s' h => p1 s' h.1)
  rintro code s1 ⟨⟨e1, he1, ha1⟩, h2⟩
  refine (Proofs.wp_ite ..).mpr ⟨fun _ => p1 s1 ⟨e1, he1, ha1⟩, fun hc => ?_⟩
  obtain ⟨evs, he, henv⟩ := h2 (Decidable.not_not.mp hc)
  rw [he1] at he
  have := List.append_cancel_left he
  subst this
  have henv : AnsweredZero e1 ∨ EnvelopeAccepted m e1 ∨ ∀ e2 e3 : Hist, (e2 = [] ∧ e3 = []) := by
    rcases henv with h | h
    · exact .inl h
    · exact .inr (.inl h)
  have henv' : ∀ e2 e3 : Hist, AnsweredZero e1 ∨ EnvelopeAccepted m e1 ∨ (e2 = [] ∧ e3 = []) := by
    intro e2 e3
    rcases henv with h | h | h
    · exact .inl h
    · exact .inr (.inl h)
    · exact .inr (.inr (h e2 e3))
  -- phases 1 and 2 alone
  have p2 : ∀ s', Proofs.NewEvents (Proofs.Allowed Middle) s1 s' → Phases m s s' := by
    rintro s' ⟨e2, he2, h2⟩
    exact ⟨e1, e2, [], by rw [he2, he1, hh]; simp, ha1, h2, henv' _ _, .inr (.inr rfl)⟩
  -- all three
  have p3 : ∀ s2 s' e2, s2.hist = s1.hist ++ e2 → (∀ e ∈ e2, Proofs.Allowed Middle e) →
      (AnsweredZero e2 ∨ Answered e2 b!"DATA\r\n" 354) → Proofs.Ext s2 s' → Phases m s s' := by
    rintro s2 s' e2 he2 h2 ha ⟨e3, he3⟩
    refine ⟨e1, e2, e3, by rw [he3, he2, he1, hh], ha1, h2, henv' _ _, ?_⟩
    rcases ha with ha | ha
    · exact .inl ha
    · exact .inr (.inl ha)
  have anyAfter : ∀ (s2 : St) (e2 : Hist), s2.hist = s1.hist ++ e2 → (∀ e ∈ e2, Proofs.Allowed Middle e) →
      (AnsweredZero e2 ∨ Answered e2 b!"DATA\r\n" 354) → ∀ (p : M Int), Proofs.Steps env Proofs.Ext p →
      Proofs.wp env p (fun _ s' => Phases m s s') (fun _ s' => Phases m s s') s2 := by
    intro s2 e2 he2 h2 ha p hp
    exact Proofs.wp_mono (hp.run s2) (fun _ s' h => p3 s2 s' e2 he2 h2 ha h) (fun _ s' h => p3 s2 s' e2 he2 h2 ha h)
  unfold sendMailRest setMailHeaders
  simp only [Proofs.wp_bind]
  have hmid : ∀ e t, Proofs.Steps env (Proofs.NewEvents (Proofs.Allowed Middle)) (sendPtrFb dataCmd e t) := fun e t =>
    Proofs.sendPtrFb_steps (fun _ _ _ => .one ⟨rfl, rfl⟩) e t
  refine Proofs.wp_mono ((Proofs.addLog_steps (R := Proofs.NewEvents (Proofs.Allowed Middle)) _ _).run s1) ?_ (fun _ s' h => p2 s' h)
  intro _ s2 h2
  refine Proofs.wp_mono (Proofs.wp_and ((hmid _ _).run s2) (Proofs.sendPtrFb_post (env := env) dataCmd (-89) (-90) s2 (by decide))) ?_
    (fun _ s' h => p2 s' (h2.trans h.1))
  rintro code s3 ⟨h3, h4, _⟩
  have h23 := h2.trans h3
  have ans : ∀ c : Int, Proofs.Ans b!"DATA\r\n" c s2 s3 → ∃ e2, s3.hist = s1.hist ++ e2 ∧ (∀ e ∈ e2, Proofs.Allowed Middle e) ∧ Answered e2 b!"DATA\r\n" c := by
    intro c h
    obtain ⟨e2, he2, ha2⟩ := h23
    have hx2 : Proofs.Ext s1 s2 := by obtain ⟨x, hx, _⟩ := h2; exact ⟨x, hx⟩
    obtain ⟨e2', he2', ha⟩ := h.after hx2
    rw [he2] at he2'
    rw [← List.append_cancel_left he2'] at ha
    exact ⟨e2, he2, ha2, ha⟩
  refine (Proofs.wp_ite ..).mpr ⟨fun hne => ?_, fun hne => ?_⟩
  · -- not 354
    refine (Proofs.wp_ite ..).mpr ⟨fun _ => p2 s3 h23, fun hz => ?_⟩
    have hz := Decidable.not_not.mp hz
    subst hz
    have h4 := h4.resolve_right (by decide)
    obtain ⟨e2, he2, ha2, ha⟩ := ans 0 h4.ans
    refine anyAfter s3 e2 he2 ha2 (.inl ⟨_, ha⟩) (do
      let code ← setMailBody m
      if code ≠ 0 then pure code
      else if ← M.gets (·.batch) then pure 0
      else do
        cleanup
        pure 0) ?_
    steps [Proofs.setMailBody_steps, Proofs.cleanup_steps]
  · have hne := Decidable.not_not.mp hne
    subst hne
    have h4 := h4.resolve_right (by decide)
    obtain ⟨e2, he2, ha2, ha⟩ := ans 354 h4.ans
    have := anyAfter s3 e2 he2 ha2 (.inr ha) (do
      let code ← (do
        let code ← addMailHeader b!"From" (fromHeaderValue m.from) (-91)
        if code ≠ 0 then pure code
        else do
          addressHeader b!"To" m.to
          addressHeader b!"Cc" m.cc
          addLog (subjectLine m.subject)
          let code ← sendPtr .content (subjectLine m.subject) (-93)
          if code ≠ 0 then pure code
          else do
            addLog contentTypeLine
            let code ← sendPtr .content contentTypeLine (-94)
            if code ≠ 0 then pure code else pure 0)
      if code ≠ 0 then pure code
      else do
        let code ← setMailBody m
        if code ≠ 0 then pure code
        else if ← M.gets (·.batch) then pure 0
        else do
          cleanup
          pure 0) (by
        steps [header_ext, addresses_ext, Proofs.addLog_steps, Proofs.sendPtr_steps', Proofs.setMailBody_steps,
          Proofs.cleanup_steps])
    simpa only [Proofs.wp_bind] using this

theorem Phases.ordered {m : Message} {s s' : St} (h : Phases m s s') :
    ∃ evs, s'.hist = s.hist ++ evs ∧ ∀ pre k c d r post, evs = pre ++ .send k c d r :: post →
      (k = .content → AnsweredZero pre ∨ (Answered pre b!"DATA\r\n" 354 ∧ EnvelopeAccepted m pre)) ∧
      (k = .cmd → d = b!"DATA\r\n" → AnsweredZero pre ∨ EnvelopeAccepted m pre) := by
  obtain ⟨e1, e2, e3, he, h1, h2, h3, h4⟩ := h
  have env_mono : ∀ x, EnvelopeAccepted m e1 → EnvelopeAccepted m (e1 ++ x) := by
    rintro x ⟨⟨f, hf, ha⟩, hr⟩
    exact ⟨⟨f, hf, Proofs.answered_mono (a := []) ha⟩, fun a ha => Proofs.answered_mono (a := []) (hr a ha)⟩
  have zero_mono : ∀ x, AnsweredZero e1 → AnsweredZero (e1 ++ x) := fun x h => Proofs.answeredZero_mono (a := []) h
  refine ⟨e1 ++ (e2 ++ e3), by rw [he]; simp, ?_⟩
  intro pre k c d r post hs
  rcases Proofs.split_append hs with ⟨t, ht⟩ | ⟨t, rfl, ht⟩
  · -- in the first phase
    have := h1 (.send k c d r) (by rw [ht]; simp)
    cases k with
    | cmd => exact ⟨nofun, fun _ hd => absurd hd this.2⟩
    | content => exact absurd this.1 (by decide)
    | quit => exact ⟨nofun, nofun⟩
  · have hd : AnsweredZero (e1 ++ t) ∨ EnvelopeAccepted m (e1 ++ t) := by
      rcases h3 with h3 | h3 | ⟨rfl, rfl⟩
      · exact .inl (zero_mono t h3)
      · exact .inr (env_mono t h3)
      · simp at ht
    refine ⟨?_, fun _ _ => hd⟩
    rcases Proofs.split_append ht with ⟨t', ht'⟩ | ⟨t', rfl, ht'⟩
    · have := h2 (.send k c d r) (by rw [ht']; simp)
      rintro rfl
      exact absurd this.1 (by decide)
    · intro _
      rcases hd with hd | hd
      · exact .inl hd
      · rcases h4 with h4 | h4 | rfl
        · exact .inl (by have := Proofs.answeredZero_mono (a := e1) (c := t') h4; simpa using this)
        · exact .inr ⟨by have := Proofs.answered_mono (a := e1) (c := t') h4; simpa using this, hd⟩
        · simp at ht'

/-- **C30, partial.** In every run of `sendMail`, however it ends: while the connection is opened no content is sent. After that,
whenever content is (even only tried to be) sent, DATA was answered 354 before, and whenever DATA is sent, the sender and every
recipient were answered 250 before. Missing: a reply that reads as number 0 counts as agreement (refuted below). -/
theorem C30_content_only_after_agreement_partial (env : Env) (m : Message) (hm : NulFree m) (s : St) :
    ∃ opening evs, (sendMail m env s).2.hist = s.hist ++ opening ++ evs ∧ contents opening = [] ∧
      (s.client.isConnected = true → opening = []) ∧
      ∀ pre k c d r post, evs = pre ++ .send k c d r :: post →
        (k = .content → AnsweredZero pre ∨ (Answered pre b!"DATA\r\n" 354 ∧ EnvelopeAccepted m pre)) ∧
        (k = .cmd → d = b!"DATA\r\n" → AnsweredZero pre ∨ EnvelopeAccepted m pre) := by
  have conn : ∀ s1, ∃ evs, (sendMailConnected m env s1).2.hist = s1.hist ++ evs ∧ ∀ pre k c d r post, evs = pre ++ .send k c d r :: post →
      (k = .content → AnsweredZero pre ∨ (Answered pre b!"DATA\r\n" 354 ∧ EnvelopeAccepted m pre)) ∧
      (k = .cmd → d = b!"DATA\r\n" → AnsweredZero pre ∨ EnvelopeAccepted m pre) := by
    intro s1
    have := sendMailConnected_phases env m hm s1
    unfold Proofs.wp at this
    split at this <;> (rename_i e; rw [e]; exact this.ordered)
  unfold sendMail
  rw [Proofs.bind_run, Proofs.gets_run]
  dsimp only
  by_cases hc : s.client.isConnected = true
  · rw [if_pos hc]
    obtain ⟨evs, he, h⟩ := conn s
    exact ⟨[], evs, by rw [he]; simp, rfl, fun _ => rfl, h⟩
  · rw [if_neg hc, Proofs.bind_run]
    have h1 := (Proofs.establish_steps (env := env) (R := Proofs.NewEvents (Proofs.Allowed (Proofs.OnlyContent fun _ => False)))).state s
    cases hes : establish env s with
    | mk r s1 =>
      rw [hes] at h1
      obtain ⟨opening, ho, hno⟩ := h1
      dsimp only at ho
      have hcont := Proofs.contents_none (fun _ h => h) hno
      cases r with
      | stop e => exact ⟨opening, [], by simp [ho], hcont, fun h => absurd h hc, by simp⟩
      | ok code =>
        dsimp only
        by_cases h0 : code = 0
        · rw [if_neg (by simpa using h0)]
          obtain ⟨evs, he, h⟩ := conn s1
          exact ⟨opening, evs, by rw [he, ho], hcont, fun h => absurd h hc, h⟩
        · rw [if_pos h0]
          exact ⟨opening, [], by rw [Proofs.pure_run]; simp [ho], hcont, fun h => absurd h hc, by simp⟩

/-- **C30, refuted**: MAIL FROM and DATA are answered `000`; DATA is sent without any RCPT TO, the headers are skipped and the body is sent. -/
theorem C30_zero_reply_agrees :
    (let r := sendMail mail (scripted ([.data b!"220 hi\r\n"] ++ clear [b!"250 ok\r\n", b!"000 no\r\n", b!"000 no\r\n", b!"550 no\r\n"]))
        (fresh .smtp)
     (r.1, commands r.2.hist, (contents r.2.hist).length)) =
      (.ok 550, [b!"ehlo localhost\r\n", b!"MAIL FROM: <me@here.org>\r\n", b!"DATA\r\n", b!"\r\n.\r\n"], 1) := by decide +kernel

/-- Non-vacuity: a run that fails in the middle; DATA was sent and refused, so there is no content. -/
example :
    (let r := sendMail mail (scripted ([.data b!"220 hi\r\n"] ++ clear [b!"250 ok\r\n", b!"250 ok\r\n", b!"250 ok\r\n", b!"451 no\r\n"]))
        (fresh .smtp)
     (r.1, commands r.2.hist, contents r.2.hist)) =
      (.ok 451, [b!"ehlo localhost\r\n", b!"MAIL FROM: <me@here.org>\r\n", b!"RCPT TO: <you@there.org>\r\n", b!"DATA\r\n"], []) := by
  decide +kernel

end Verif.Props
