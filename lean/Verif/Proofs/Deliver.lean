import Verif.Proofs.Said
/-!
# What happened when the functions of `sendMail` report success
-/
namespace Verif.Proofs
open Verif Verif.Model Verif.Spec

variable {α : Type} {env : Env}

/-- Partial correctness: nothing is said about runs that stop. -/
abbrev post (env : Env) (m : M α) (Q : α → St → Prop) (s : St) : Prop := wp env m Q (fun _ _ => True) s

theorem post_steps {R : St → St → Prop} {m : M α} (h : Steps env R m) (s : St) : post env m (fun _ => R s) s :=
  wp_mono (h.run s) (fun _ _ h => h) (fun _ _ _ => trivial)

theorem post_mono {m : M α} {Q Q' : α → St → Prop} {s : St} (h : post env m Q s) (hq : ∀ a s', Q a s' → Q' a s') :
    post env m Q' s := wp_mono h hq (fun _ _ h => h)

theorem post_and {m : M α} {Q Q' : α → St → Prop} {s : St} (h : post env m Q s) (h' : post env m Q' s) :
    post env m (fun a s' => Q a s' ∧ Q' a s') s := wp_mono (wp_and h h') (fun _ _ h => h) (fun _ _ _ => trivial)

theorem post_deaf {m : M α} (h : Steps env Deaf m) (s : St) : post env m (fun _ => Deaf s) s := post_steps h s

theorem Replied.ext {d : Bytes} {code : Int} {s s' : St} (h : Replied d code s s') : Ext s s' := by
  obtain ⟨t, h, _⟩ := h.said; exact h.ext

theorem Over.ext {d : Bytes} {s s' : St} (h : Over d s s') : Ext s s' := by
  obtain ⟨r, h⟩ := h; exact Ext.one.trans h.ext

theorem Refused.ext {k : SendKind} {d : Bytes} {s s' : St} (h : Refused k d s s') : Ext s s' := by
  rcases h with h | ⟨r, _, h⟩
  · exact h.ext
  · exact Ext.one.trans h.ext

theorem Deaf.ext {s s' : St} (h : Deaf s s') : Ext s s' := h.said.ext

/-- A command: answered, or the code is one of the two errors. -/
theorem sendPtrFb_post (d e t) (s : St) (he : e ≠ 0) :
    post env (sendPtrFb d e t) (fun code s' => (Replied d code s s' ∨ (code = e ∨ code = t)) ∧ Ext s s') s := by
  refine wp_mono (sendPtrFb_out d e t s he) ?_ (fun _ _ _ => trivial)
  rintro code s' (h | ⟨h1, _, h2⟩)
  · exact ⟨.inl h, h.ext⟩
  · exact ⟨.inr h1, h2.ext⟩

/-! ### Sender and recipients -/

theorem mailFromLoop_post (fs : List Bytes) (last : Int) (hl : last ≠ 250) (s : St) :
    post env (mailFromLoop last fs) (fun code s' =>
      (code = 250 → ∃ pre f rest items, fs = pre ++ f :: rest ∧
        Turns (chan s.client) (pre.map (fun f => (cstr f, 501)) ++ [(cstr f, 250)]) items ∧ Said items s s') ∧
      (code = 0 → Bad s s' ∨ (fs = [] ∧ last = 0))) s := by
  induction fs generalizing last s with
  | nil => exact ⟨fun h => absurd h hl, fun h => .inr ⟨rfl, h⟩⟩
  | cons f fs ih =>
    unfold mailFromLoop
    unfold post
    rw [wp_bind]
    refine post_mono (post_deaf (addLog_steps _ _) s) fun _ s1 h1 => ?_
    rw [wp_bind]
    refine post_mono (sendPtrFb_post _ _ _ s1 (by decide)) fun code s2 ⟨h2, hx⟩ => ?_
    rw [wp_ite]
    refine ⟨fun hc => ?_, fun hc => ?_⟩
    · subst hc
      refine ⟨fun _ => ?_, fun h => absurd h (by decide)⟩
      rcases h2 with h2 | h2
      · obtain ⟨t, hs, hr⟩ := h2.said
        refine ⟨[], f, fs, _, rfl, ?_, h1.then_said hs⟩
        rw [h1.chan]
        exact .cons hr .nil
      · exfalso; revert h2; decide
    · rw [wp_ite]
      refine ⟨fun hn => ⟨fun h => absurd h hc, fun h => ?_⟩, fun hn => ?_⟩
      · subst h
        rcases h2 with h2 | h2
        · exact .inl (h2.bad.after h1.ext)
        · exfalso; revert h2; decide
      · have hn : code = 501 := Decidable.not_not.mp hn
        subst hn
        rcases h2 with h2 | h2
        · obtain ⟨t, hs, hr⟩ := h2.said
          refine post_mono (ih 501 (by decide) s2) fun code s3 ⟨h3, h4⟩ => ⟨fun h => ?_, fun h => ?_⟩
          · obtain ⟨pre, g, rest, items, rfl, ht, hs'⟩ := h3 h
            refine ⟨f :: pre, g, rest, _, rfl, ?_, (h1.then_said hs).trans hs'⟩
            rw [hs.chan] at ht
            rw [h1.chan] at ht ⊢
            exact .cons hr ht
          · rcases h4 h with h4 | ⟨_, h4⟩
            · exact .inl (h4.after (h1.ext.trans hx))
            · exact absurd h4 (by decide)
        · exfalso; revert h2; decide

theorem addMailRecipients_post (l : List MessageAddress) (ret : Int) (s : St) :
    post env (addMailRecipients ret l) (fun code s' =>
      (code = 250 → ret = 250 ∧ ∃ items, Turns (chan s.client) (l.map fun a => (cstr (rcptTo a), 250)) items ∧ Said items s s') ∧
      (code = 0 → ret = 0 ∨ Bad s s')) s := by
  induction l generalizing ret s with
  | nil => exact ⟨fun h => ⟨h, [], .nil, (Preord.refl (R := Deaf) s).said⟩, fun h => .inl h⟩
  | cons a l ih =>
    unfold addMailRecipients
    unfold post
    rw [wp_bind]
    refine post_mono (post_deaf (addLog_steps _ _) s) fun _ s1 h1 => ?_
    rw [wp_bind]
    refine post_mono (sendPtrFb_post _ _ _ s1 (by decide)) fun code s2 ⟨h2, hx⟩ => ?_
    refine post_mono (post_and (ih _ s2) (post_steps (R := Ext) (addMailRecipients_steps _ _) s2))
      fun code' s3 ⟨⟨h3, h4⟩, h5⟩ => ⟨fun h => ?_, fun h => ?_⟩
    · obtain ⟨hret, items, ht, hs'⟩ := h3 h
      by_cases hc : code = 250
      · subst hc
        simp only [ne_eq, not_true, if_false] at hret
        refine ⟨hret, ?_⟩
        rcases h2 with h2 | h2
        · obtain ⟨t, hs, hr⟩ := h2.said
          refine ⟨_, ?_, (h1.then_said hs).trans hs'⟩
          rw [hs.chan] at ht
          rw [h1.chan] at ht ⊢
          exact .cons hr ht
        · exfalso; revert h2; decide
      · rw [if_pos hc] at hret
        exact absurd hret hc
    · rcases h4 h with h4 | h4
      · by_cases hc : code = 250
        · rw [if_neg (by simpa using hc)] at h4
          exact .inl h4
        · rw [if_pos hc] at h4
          subst h4
          rcases h2 with h2 | h2
          · exact .inr ((h2.bad.after h1.ext).before h5)
          · exfalso; revert h2; decide
      · exact .inr (h4.after (h1.ext.trans hx))

/-- Reading an array. -/
theorem arrElems_post {β : Type} (a : Arr β) (s : St) : post env (arrElems a) (fun l s' => l = elems a ∧ s' = s ∧ (0 < a.count → elems a ≠ [])) s := by
  unfold arrElems elems
  split
  · rename_i h
    refine (wp_ite ..).mpr ⟨fun h0 => ⟨by simp [h], rfl, fun h' => by omega⟩, fun _ => trivial⟩
  · rename_i l h
    refine (wp_ite ..).mpr ⟨fun hl => ⟨by simp [h], rfl, fun h' => ?_⟩, fun _ => trivial⟩
    simp only [h, Option.getD_some, ne_eq, List.take_eq_nil_iff, not_or]
    refine ⟨by omega, fun h0 => ?_⟩
    rw [h0] at hl
    simp at hl
    omega

theorem elems_zero {β : Type} {a : Arr β} (h : ¬ 0 < a.count) : elems a = [] := by
  unfold elems
  rw [show a.count = 0 by omega, List.take_zero]

theorem turns_append {ch : Chan} {a b : List (Bytes × Int)} {x y : List Item} (h : Turns ch a x) (h' : Turns ch b y) :
    Turns ch (a ++ b) (x ++ y) := by
  induction h with
  | nil => exact h'
  | cons hr _ ih => exact .cons hr ih

theorem recipientsLoop_post (l : List (Arr MessageAddress)) (s : St) :
    post env (recipientsLoop l) (fun code s' => code = 0 → Bad s s' ∨
      ∃ items, Turns (chan s.client) ((l.flatMap elems).map fun a => (cstr (rcptTo a), 250)) items ∧ Said items s s') s := by
  induction l generalizing s with
  | nil => exact fun _ => .inr ⟨[], .nil, (Preord.refl (R := Deaf) s).said⟩
  | cons a l ih =>
    unfold recipientsLoop
    refine (wp_ite ..).mpr ⟨fun hn => ?_, fun hn => ?_⟩
    · have he : elems a = [] := by
        unfold elems
        cases h : a.ptr with
        | none => simp
        | some l => simp [h] at hn
      refine post_mono (ih s) fun code s' h hc => ?_
      rcases h hc with h | ⟨items, h1, h2⟩
      · exact .inl h
      · exact .inr ⟨items, by rw [List.flatMap_cons, he]; exact h1, h2⟩
    · rw [wp_bind]
      refine post_mono (arrElems_post a s) ?_
      rintro _ _ ⟨rfl, rfl, hne⟩
      rw [wp_bind]
      refine post_mono (post_and (addMailRecipients_post (elems a) 250 _)
        (post_steps (R := Ext) (addMailRecipients_steps _ _) _)) fun code s1 ⟨⟨h1, h2⟩, hx⟩ => ?_
      refine (wp_ite ..).mpr ⟨fun hc h => ?_, fun hc => ?_⟩
      · rcases h2 h with h2 | h2
        · exact absurd h2 (by decide)
        · exact .inl h2
      · obtain ⟨_, items, ht, hs⟩ := h1 (Decidable.not_not.mp hc)
        refine post_mono (ih s1) fun code s2 h hc => ?_
        rcases h hc with h | ⟨items', h1, h2⟩
        · exact .inl (h.after hx)
        · rw [hs.chan] at h1
          exact .inr ⟨items ++ items', by rw [List.flatMap_cons, List.map_append]; exact turns_append ht h1, hs.trans h2⟩

/-- The sender was accepted, after some of the forms were answered 501. -/
def SenderDone (ch : Chan) (forms : List Bytes) (items : List Item) : Prop :=
  ∃ pre f rest, forms = pre ++ f :: rest ∧ Turns ch (pre.map (fun f => (cstr f, 501)) ++ [(cstr f, 250)]) items

theorem setMailRecipients_post (m : Message) (s : St) :
    post env (setMailRecipients m) (fun code s' => code = 0 → Bad s s' ∨
      ∃ i1 i2, SenderDone (chan s.client) (mailFormats m.from) i1 ∧
        Turns (chan s.client) ((recipients m).map fun a => (cstr (rcptTo a), 250)) i2 ∧ Said (i1 ++ i2) s s') s := by
  unfold setMailRecipients
  unfold post
  rw [wp_bind]
  refine post_mono (post_and (mailFromLoop_post _ 0 (by decide) s) (post_steps (R := Ext) (mailFromLoop_steps _ _) s))
    fun code s1 ⟨⟨h1, h2⟩, hx⟩ => ?_
  refine (wp_ite ..).mpr ⟨fun _ hc => ?_, fun hc => ?_⟩
  · rcases h2 hc with h | ⟨h, _⟩
    · exact .inl h
    · exact absurd h (by simp [mailFormats])
  · obtain ⟨pre, f, rest, items, hf, ht, hs⟩ := h1 (Decidable.not_not.mp hc)
    refine post_mono (recipientsLoop_post _ s1) fun code s2 h hc => ?_
    rcases h hc with h | ⟨items', h1, h2⟩
    · exact .inl (h.after hx)
    · rw [hs.chan] at h1
      refine .inr ⟨items, items', ⟨pre, f, rest, hf, ht⟩, ?_, hs.trans h2⟩
      simpa [recipients] using h1

/-! ### Headers -/

/-- Either this was said, or the session was closed, or something went wrong. -/
def Sofar (items : List Item) (s s' : St) : Prop := Said items s s' ∨ (Dead s'.client ∧ Ext s s') ∨ Bad s s'

theorem Sofar.deaf {items : List Item} {s s1 s2 : St} (h : Sofar items s s1) (h' : Deaf s1 s2) : Sofar items s s2 := by
  rcases h with h | ⟨h, hx⟩ | h
  · exact .inl (h.then_deaf h')
  · exact .inr (.inl ⟨h.same h'.1, hx.trans h'.ext⟩)
  · exact .inr (.inr (h.before h'.ext))

/-- Sending a piece of the message, from whatever came before. -/
theorem content_post {items : List Item} {s0 s : St} (h : Sofar items s0 s) (d : Bytes) (e : Int) (he : e ≠ 0) :
    post env (sendPtr .content d e) (fun code s' =>
      (code = 0 → Said (items ++ [.content (chan s0.client) (cstr d)]) s0 s' ∨ Bad s0 s') ∧
      Sofar (items ++ [.content (chan s0.client) (cstr d)]) s0 s') s := by
  refine wp_mono (sendPtr_out .content d e s) ?_ (fun _ _ _ => trivial)
  rintro code s' (⟨rfl, ha⟩ | ⟨rfl, hd, hr⟩)
  · have : Said (items ++ [.content (chan s0.client) (cstr d)]) s0 s' ∨ Bad s0 s' := by
      rcases h with h | ⟨h, hx⟩ | h
      · left
        have := ha.said_content
        rw [h.chan] at this
        exact h.trans this
      · exact .inr ((ha.bad h).after hx)
      · exact .inr (h.before ha.ext)
    refine ⟨fun _ => this, ?_⟩
    rcases this with h | h
    · exact .inl h
    · exact .inr (.inr h)
  · refine ⟨fun h => absurd h he, ?_⟩
    rcases h with h | ⟨h, hx⟩ | h
    · exact .inr (.inl ⟨hd, h.ext.trans hr.ext⟩)
    · exact .inr (.inl ⟨hd, hx.trans hr.ext⟩)
    · exact .inr (.inr (h.before hr.ext))

theorem addMailHeader_post {items : List Item} {s0 s : St} (h : Sofar items s0 s) (f v : Bytes) (e : Int) (he : e ≠ 0) :
    post env (addMailHeader f v e) (fun code s' =>
      (code = 0 → Said (items ++ [.content (chan s0.client) (cstr (headerLine f v))]) s0 s' ∨ Bad s0 s') ∧
      Sofar (items ++ [.content (chan s0.client) (cstr (headerLine f v))]) s0 s') s := by
  unfold addMailHeader
  unfold post
  rw [wp_bind]
  exact post_mono (post_deaf (addLog_steps _ _) s) fun _ s1 h1 => content_post (h.deaf h1) _ _ he

/-- The lines of an optional address header. -/
def addressLines (f : Bytes) (a : Arr MessageAddress) : List Bytes :=
  if elems a = [] then [] else [headerLine f (generateHeaderAddressValues (elems a))]

theorem addressHeader_post {items : List Item} {s0 s : St} (h : Sofar items s0 s) (f : Bytes) (a : Arr MessageAddress) :
    post env (addressHeader f a) (fun _ s' =>
      Sofar (items ++ (addressLines f a).map fun l => .content (chan s0.client) (cstr l)) s0 s') s := by
  unfold addressHeader addressLines
  refine (wp_ite ..).mpr ⟨fun hc => ?_, fun hc => ?_⟩
  · rw [wp_bind]
    refine post_mono (arrElems_post a s) ?_
    rintro _ _ ⟨rfl, rfl, hne⟩
    rw [wp_bind]
    refine post_mono (addMailHeader_post h f _ (-92) (by decide)) fun code s1 ⟨_, h1⟩ => ?_
    rw [if_neg (hne hc)]
    exact h1
  · rw [if_pos (elems_zero hc)]
    simpa using h

/-- The header lines in the order they are sent. -/
def headerLines (m : Message) : List Bytes :=
  [headerLine b!"From" (fromHeaderValue m.from)] ++ addressLines b!"To" m.to ++ addressLines b!"Cc" m.cc ++
    [subjectLine m.subject, contentTypeLine]

theorem setMailHeaders_post (m : Message) (s : St) :
    post env (setMailHeaders m) (fun code s' => code = 0 → Bad s s' ∨
      ∃ i, Turns (chan s.client) [(cstr dataCmd, 354)] i ∧
        Said (i ++ (headerLines m).map fun l => .content (chan s.client) (cstr l)) s s') s := by
  unfold setMailHeaders
  unfold post
  rw [wp_bind]
  refine post_mono (post_deaf (addLog_steps _ _) s) fun _ s1 h1 => ?_
  rw [wp_bind]
  refine post_mono (sendPtrFb_post _ _ _ s1 (by decide)) fun code s2 ⟨h2, hx⟩ => ?_
  refine (wp_ite ..).mpr ⟨fun _ hc => ?_, fun hc => ?_⟩
  · subst hc
    rcases h2 with h2 | h2
    · exact .inl (h2.bad.after h1.ext)
    · exfalso; revert h2; decide
  have hc := Decidable.not_not.mp hc
  subst hc
  have h2 := h2.resolve_right (by decide)
  obtain ⟨t, hs, hr⟩ := h2.said
  have hs := h1.then_said hs
  rw [h1.chan] at hs
  rw [wp_bind]
  refine post_mono (addMailHeader_post (.inl hs) _ _ _ (by decide)) fun code s3 ⟨h3, h3'⟩ => ?_
  refine (wp_ite ..).mpr ⟨fun h hc => absurd hc h, fun hc => ?_⟩
  rw [wp_bind]
  refine post_mono (addressHeader_post h3' _ _) fun _ s4 h4 => ?_
  rw [wp_bind]
  refine post_mono (addressHeader_post h4 _ _) fun _ s5 h5 => ?_
  rw [wp_bind]
  refine post_mono (post_deaf (addLog_steps _ _) s5) fun _ s6 h6 => ?_
  rw [wp_bind]
  refine post_mono (content_post (h5.deaf h6) _ _ (by decide)) fun code s7 ⟨h7, h7'⟩ => ?_
  refine (wp_ite ..).mpr ⟨fun h hc => absurd hc h, fun hc => ?_⟩
  rw [wp_bind]
  refine post_mono (post_deaf (addLog_steps _ _) s7) fun _ s8 h8 => ?_
  rw [wp_bind]
  refine post_mono (content_post (h7'.deaf h8) _ _ (by decide)) fun code s9 ⟨h9, _⟩ => ?_
  refine (wp_ite ..).mpr ⟨fun h hc => absurd hc h, fun hc _ => ?_⟩
  rcases h9 (Decidable.not_not.mp hc) with h9 | h9
  · refine .inr ⟨_, .cons hr .nil, ?_⟩
    simpa [headerLines, List.append_assoc] using h9
  · exact .inl h9

/-! ### Body -/

/-- These files were read between the states. -/
def Reads (atts : List Attachment) (files : List (Option Bytes)) (s s' : St) : Prop :=
  atts.length = files.length ∧ ∃ evs, s'.hist = s.hist ++ evs ∧ ∀ p ∈ atts.zip files, .readFile p.1.filename p.2 ∈ evs

theorem Reads.after {atts files} {a b c : St} (h : Ext a b) (h' : Reads atts files b c) : Reads atts files a c := by
  obtain ⟨x, hx⟩ := h
  obtain ⟨hl, y, hy, hm⟩ := h'
  exact ⟨hl, x ++ y, by rw [hy, hx, List.append_assoc], fun p hp => List.mem_append_right _ (hm p hp)⟩

theorem Reads.before {atts files} {a b c : St} (h : Reads atts files a b) (h' : Ext b c) : Reads atts files a c := by
  obtain ⟨hl, x, hx, hm⟩ := h
  obtain ⟨y, hy⟩ := h'
  exact ⟨hl, x ++ y, by rw [hy, hx, List.append_assoc], fun p hp => List.mem_append_left _ (hm p hp)⟩

/-- The text of an attached file. -/
def fileText : Option Bytes → Bytes
  | none => []
  | some content => cstr (Model.Base64.encode (content.take (content.length % 2 ^ 32)))

/-- The text of the attachment parts. -/
def attText : List Attachment → List (Option Bytes) → Bytes
  | a :: as, f :: fs => attachmentHeader a ++ fileText f ++ attText as fs
  | _, _ => []

theorem attachmentsLoop_post (l : List Attachment) (s : St) :
    post env (attachmentsLoop l) (fun t s' => ∃ files, Reads l files s s' ∧ t = attText l files) s := by
  induction l generalizing s with
  | nil => exact ⟨[], ⟨rfl, [], by simp, by simp⟩, rfl⟩
  | cons a l ih =>
    unfold attachmentsLoop base64EncodedFile sysReadFile
    unfold post
    rw [wp_bind, wp_bind, wp_ask]
    generalize env.readFile s.hist a.filename = f
    have key : post env (do let rest ← attachmentsLoop l; pure (attachmentHeader a ++ fileText f ++ rest)) (fun t s' =>
        ∃ files, Reads (a :: l) files s s' ∧ t = attText (a :: l) files)
        { s with client := s.client, hist := s.hist ++ [.readFile a.filename f] } := by
      unfold post
      rw [wp_bind]
      refine post_mono (ih _) fun t s' ⟨files, ⟨hl, evs, he, hm⟩, ht⟩ => ?_
      refine ⟨f :: files, ⟨by simp [hl], .readFile a.filename f :: evs, by rw [he]; simp, ?_⟩, by rw [ht]; rfl⟩
      intro p hp
      rw [List.zip_cons_cons, List.mem_cons] at hp
      rcases hp with rfl | hp
      · exact List.mem_cons_self ..
      · exact List.mem_cons_of_mem _ (hm p hp)
    cases f <;> exact key

/-- The text of the body for these files. -/
def bodyText (m : Message) (files : List (Option Bytes)) : Bytes :=
  if elems m.attachments = [] then bodyPart m.mime m.body
  else bodyPart m.mime m.body ++ (attText (elems m.attachments) files ++ b!"\r\n--sep--")

theorem fullBody_post (m : Message) (s : St) :
    post env (fullBody m) (fun t s' => (∃ files, Reads (elems m.attachments) files s s' ∧ t = bodyText m files) ∧ Deaf s s') s := by
  refine post_and ?_ (post_deaf (fullBody_steps m) s)
  unfold fullBody bodyText
  unfold post
  rw [wp_bind]
  refine post_mono (arrElems_post _ s) ?_
  rintro _ _ ⟨rfl, rfl, hne⟩
  refine (wp_ite ..).mpr ⟨fun hc => ?_, fun hc => ?_⟩
  · rw [wp_bind]
    unfold createAttachmentsText
    rw [wp_bind]
    refine post_mono (attachmentsLoop_post _ _) fun t s1 ⟨files, hr, ht⟩ => ?_
    refine ⟨files, hr, ?_⟩
    rw [if_neg (hne hc), ht]
  · rw [elems_zero hc]
    exact ⟨[], ⟨rfl, [], by simp, by simp⟩, by rw [if_pos rfl]⟩

theorem bodyPieces_flatten (body : Bytes) (n i : Nat) (h : body.length ≤ i + n) : (bodyPieces body n i).flatten = body.drop i := by
  induction n generalizing i with
  | zero => simp [bodyPieces, List.drop_eq_nil_of_le (show body.length ≤ i by omega)]
  | succ n ih =>
    unfold bodyPieces
    split
    · rename_i hi
      rw [List.flatten_cons, ih _ (by omega)]
      unfold substr
      split
      · rw [List.drop_eq_nil_of_le (show body.length ≤ i + 512 by omega), List.append_nil,
          List.take_of_length_le (by simp)]
      · rw [← List.drop_drop, List.take_append_drop]
    · rw [List.drop_eq_nil_of_le (show body.length ≤ i by omega)]
      rfl

theorem bodyPieces_size (body : Bytes) (n i : Nat) : ∀ p ∈ bodyPieces body n i, 1 ≤ p.length ∧ p.length ≤ 512 := by
  induction n generalizing i with
  | zero => simp [bodyPieces]
  | succ n ih =>
    unfold bodyPieces
    split
    · intro p hp
      rw [List.mem_cons] at hp
      rcases hp with rfl | hp
      · unfold substr
        rw [List.length_take, List.length_drop]
        split <;> omega
      · exact ih _ p hp
    · simp

theorem sendPieces_post {items : List Item} {s0 s : St} (h : Said items s0 s) (l : List Bytes) :
    post env (sendPieces l) (fun code s' => code = 0 →
      Said (items ++ l.map fun p => .content (chan s0.client) (cstr p)) s0 s' ∨ Bad s0 s') s := by
  induction l generalizing items s with
  | nil => exact fun _ => .inl (by simpa using h)
  | cons p l ih =>
    unfold sendPieces
    unfold post
    rw [wp_bind]
    refine post_mono (post_and (content_post (.inl h) p (-95) (by decide))
      (post_steps (R := Ext) (sendPtr_steps' _ _ _) s)) fun code s1 ⟨⟨h1, _⟩, hx⟩ => ?_
    refine (wp_ite ..).mpr ⟨fun h hc => absurd hc h, fun hc => ?_⟩
    rcases h1 (Decidable.not_not.mp hc) with h1 | h1
    · refine post_mono (ih h1) fun code s2 h2 hc => ?_
      simpa using h2 hc
    · exact post_mono (post_steps (R := Ext) (sendPieces_steps l) s1) fun code s2 h2 _ => .inr (h1.before h2)

theorem sendBodyText_post {items : List Item} {s0 s : St} (h : Said items s0 s) (body : Bytes) (hb : body ≠ []) :
    post env (sendBodyText body) (fun code s' => code = 0 →
      (∃ l : List Bytes, l.flatten = body ∧ (∀ p ∈ l, 1 ≤ p.length ∧ p.length ≤ 512) ∧
        Said (items ++ l.map fun p => .content (chan s0.client) (cstr p)) s0 s') ∨ Bad s0 s') s := by
  unfold sendBodyText
  refine (wp_ite ..).mpr ⟨fun hl => ?_, fun hl => ?_⟩
  · refine post_mono (sendPieces_post h _) fun code s' h hc => ?_
    rcases h hc with h | h
    · exact .inl ⟨_, by rw [bodyPieces_flatten _ _ _ (by omega), List.drop_zero], bodyPieces_size _ _ _, h⟩
    · exact .inr h
  · rw [wp_bind]
    refine post_mono (content_post (.inl h) body (-96) (by decide)) fun code s1 ⟨h1, _⟩ => ?_
    refine (wp_ite ..).mpr ⟨fun h hc => absurd hc h, fun hc _ => ?_⟩
    rcases h1 (Decidable.not_not.mp hc) with h1 | h1
    · refine .inl ⟨[body], by simp, ?_, h1⟩
      have := List.length_pos_iff.mpr hb
      simp; omega
    · exact .inr h1

/-- What is said in `setMailBody`. -/
def BodySaid (ch : Chan) (m : Message) (files : List (Option Bytes)) (batch : Bool) (items : List Item) : Prop :=
  ∃ (l : List Bytes) (done : List Item), items = (l.map fun p => .content ch (cstr p)) ++ done ++
      (if batch then [] else [.quit ch quitCmd]) ∧
    l.flatten = bodyText m files ∧ (∀ p ∈ l, 1 ≤ p.length ∧ p.length ≤ 512) ∧ Turns ch [(cstr endOfData, 250)] done

theorem bodyText_ne (m : Message) (files) : bodyText m files ≠ [] := by
  unfold bodyText bodyPart
  split <;> simp

theorem setMailBody_post (m : Message) (s : St) :
    post env (setMailBody m) (fun code s' => code = 0 → Bad s s' ∨
      ∃ files items, Reads (elems m.attachments) files s s' ∧ BodySaid (chan s.client) m files s.client.batch items ∧
        Said items s s') s := by
  unfold setMailBody
  unfold post
  rw [wp_bind]
  refine post_mono (post_deaf (addLog_steps _ _) s) fun _ s1 h1 => ?_
  rw [wp_bind]
  refine post_mono (fullBody_post m s1) fun body s2 ⟨⟨files, hr, hb⟩, h2⟩ => ?_
  rw [wp_bind]
  have hs := h1.said.then_deaf h2
  have hr := hr.after h1.ext
  refine post_mono (post_and (sendBodyText_post hs body (hb ▸ bodyText_ne m files))
    (post_steps (R := Ext) (by unfold sendBodyText; steps [sendPieces_steps, sendPtr_steps']) s2)) fun code s3 ⟨h3, hx⟩ => ?_
  refine (wp_ite ..).mpr ⟨fun h hc => absurd hc h, fun hc => ?_⟩
  rcases (h3 (Decidable.not_not.mp hc)).symm with h3 | ⟨l, hl, hsz, h3⟩
  · refine post_mono (post_steps (R := Ext) ?_ s3) fun code s4 h4 _ => .inl (h3.before h4)
    steps [addLog_steps, sendPtrFb_steps', sendQuit_steps]
  have hr := hr.before hx
  rw [wp_bind]
  refine post_mono (post_deaf (addLog_steps _ _) s3) fun _ s4 h4 => ?_
  have hr := hr.before h4.ext
  have h3 := h3.then_deaf h4
  rw [wp_bind]
  refine post_mono (sendPtrFb_post _ _ _ s4 (by decide)) fun code s5 ⟨h5, hx⟩ => ?_
  refine (wp_ite ..).mpr ⟨fun _ hc => ?_, fun hc => ?_⟩
  · subst hc
    rcases h5 with h5 | h5
    · exact .inl (h5.bad.after h3.ext)
    · exfalso; revert h5; decide
  have hc := Decidable.not_not.mp hc
  subst hc
  have h5 := h5.resolve_right (by decide)
  have hr := hr.before hx
  obtain ⟨t, h5, ht⟩ := h5.said
  rw [h3.chan] at h5
  have h5 := h3.trans h5
  rw [List.nil_append] at h5
  rw [wp_bind, wp_gets]
  have hbatch : s5.client.batch = s.client.batch := by
    have := h5.1
    unfold SameConn at this
    rw [this]
  refine (wp_ite ..).mpr ⟨fun hb' _ => ?_, fun hb' => ?_⟩
  · refine .inr ⟨files, _, hr, ⟨l, _, rfl, by rw [hl, hb], hsz, .cons ht .nil⟩, ?_⟩
    rw [← hbatch, hb']
    simpa using h5
  · rw [wp_bind]
    unfold sendQuit sendQuitWith
    rw [wp_bind]
    refine post_mono (post_deaf (addLog_steps _ _) s5) fun _ s6 h6 => ?_
    have h6' := h5.then_deaf h6
    have hr := hr.before h6.ext
    refine wp_mono (sendPtr_out .quit quitCmd (-99) s6) ?_ (fun _ _ _ => trivial)
    intro code s7 h7
    refine (wp_ite ..).mpr ⟨fun h hc => absurd hc h, fun hc _ => ?_⟩
    rcases h7 with ⟨_, ha⟩ | ⟨h, _⟩
    · have h7 := ha.said_quit
      rw [h6'.chan] at h7
      refine .inr ⟨files, _, hr.before ha.ext, ⟨l, _, rfl, by rw [hl, hb], hsz, .cons ht .nil⟩, ?_⟩
      rw [← hbatch, if_neg hb']
      exact h6'.trans h7
    · subst h
      exact absurd hc (by decide)

/-! ### The whole mail -/

/-- Closing something. -/
def ClosingEv : Ev → Prop
  | .close _ => True
  | .bioFree _ => True
  | _ => False

theorem talk_closing {evs : Hist} (h : ∀ e ∈ evs, ClosingEv e) : talk evs = ([], []) := by
  induction evs with
  | nil => rfl
  | cons e evs ih =>
    rw [talk_cons, ih fun e he => h e (List.mem_cons_of_mem _ he)]
    have := h e (List.mem_cons_self ..)
    cases e <;> simp_all [ClosingEv, talkStep, hear]

/-- The session was closed without a word. -/
def Closed (s s' : St) : Prop := ∃ evs, s'.hist = s.hist ++ evs ∧ (∀ e ∈ evs, ClosingEv e) ∧ Dead s'.client

theorem closeSession_closed (s : St) : post env closeSession (fun _ s' => Closed s s') s := by
  refine post_mono (post_and (Q := fun _ s' => ∃ evs, s'.hist = s.hist ++ evs ∧ (∀ e ∈ evs, ClosingEv e))
    ?_ (wp_mono (closeSession_out s) (fun _ _ h => h) (fun _ _ _ => trivial))) ?_
  · unfold closeSession closeSocket freeTls sysClose
    simp only [post, wp_bind, wp_modify, wp_gets, wp_ite, wp_emit]
    refine ⟨fun _ => ⟨fun _ => ⟨_, rfl, by simp [ClosingEv]⟩, fun _ => ⟨[], by simp, by simp⟩⟩, fun _ => ?_⟩
    cases s.client.bio with
    | none => exact ⟨fun _ => ⟨_, rfl, by simp [ClosingEv]⟩, fun _ => ⟨[], by simp, by simp⟩⟩
    | some b =>
      exact ⟨fun _ => ⟨[.bioFree b.id, .close s.client.sock], by simp, by simp [ClosingEv]⟩, fun _ => ⟨_, rfl, by simp [ClosingEv]⟩⟩
  · rintro _ s' ⟨⟨evs, h1, h2⟩, h3, h4⟩
    exact ⟨evs, h1, h2, h4⟩

theorem cleanup_closed (s : St) (hb : s.client.batch = false) : post env cleanup (fun _ s' => Closed s s') s := by
  unfold cleanup
  unfold post
  rw [wp_bind, wp_env]
  cases env.depth with
  | zero => trivial
  | succ n =>
    unfold cleanupN
    simp only [wp_bind, wp_gets, wp_ite]
    exact ⟨fun h => by simp [hb] at h, fun _ => closeSession_closed s⟩

/-- What is said in a successful `sendMail` after the connection. -/
def MailSaid (ch : Chan) (m : Message) (files : List (Option Bytes)) (batch : Bool) (items : List Item) : Prop :=
  ∃ i1 i2 i3 i5, items = i1 ++ i2 ++ i3 ++ ((headerLines m).map fun l => .content ch (cstr l)) ++ i5 ∧
    SenderDone ch (mailFormats m.from) i1 ∧ Turns ch ((recipients m).map fun a => (cstr (rcptTo a), 250)) i2 ∧
    Turns ch [(cstr dataCmd, 354)] i3 ∧ BodySaid ch m files batch i5

/-- The same for histories. -/
def SaidHist (items : List Item) (s s' : St) : Prop :=
  ∃ evs, s'.hist = s.hist ++ evs ∧ (NoShortWrites evs → talk evs = ([], items))

theorem Said.hist {items : List Item} {s s' : St} (h : Said items s s') : SaidHist items s s' := h.2

theorem sendMailConnected_post (m : Message) (s : St) :
    post env (sendMailConnected m) (fun code s' => code = 0 → Bad s s' ∨
      (∃ files items, Reads (elems m.attachments) files s s' ∧ MailSaid (chan s.client) m files s.client.batch items ∧
        SaidHist items s s') ∧ (s.client.batch = true → SameConn { s.client with isConnected := true } s'.client) ∧
        (s.client.batch = false → Dead s'.client)) s := by
  unfold sendMailConnected
  unfold post
  rw [wp_bind, wp_modify]
  generalize hs0 : ({ s with client := { s.client with isConnected := true } } : St) = s0
  have hch : chan s0.client = chan s.client := by subst hs0; rfl
  have hh : s0.hist = s.hist := by subst hs0; rfl
  have hb : s0.client.batch = s.client.batch := by subst hs0; rfl
  have hcl : s0.client = { s.client with isConnected := true } := by subst hs0; rfl
  have h0 : Ext s s0 := .same hh
  clear hs0
  rw [wp_bind]
  refine post_mono (post_and (setMailRecipients_post m s0) (post_steps (R := Ext) (setMailRecipients_steps m) s0))
    fun code s1 ⟨h1, x1⟩ => ?_
  refine (wp_ite ..).mpr ⟨fun h hc => absurd hc h, fun hc => ?_⟩
  rcases h1 (Decidable.not_not.mp hc) with h1 | ⟨i1, i2, ht1, ht2, h1⟩
  · refine post_mono (post_steps (R := Ext) ?_ s1) fun code s4 h4 _ => .inl ((h1.before h4).after h0)
    unfold sendMailRest
    steps [setMailHeaders_steps, setMailBody_steps, cleanup_steps]
  unfold sendMailRest
  rw [wp_bind]
  refine post_mono (post_and (setMailHeaders_post m s1) (post_steps (R := Ext) (setMailHeaders_steps m) s1))
    fun code s2 ⟨h2, x2⟩ => ?_
  refine (wp_ite ..).mpr ⟨fun h hc => absurd hc h, fun hc => ?_⟩
  rcases h2 (Decidable.not_not.mp hc) with h2 | ⟨i3, ht3, h2⟩
  · refine post_mono (post_steps (R := Ext) ?_ s2) fun code s4 h4 _ => .inl (((h2.after x1).before h4).after h0)
    steps [setMailBody_steps, cleanup_steps]
  rw [h1.chan] at ht3 h2
  have h2 := h1.trans h2
  rw [wp_bind]
  refine post_mono (post_and (setMailBody_post m s2) (post_steps (R := Ext) (setMailBody_steps m) s2))
    fun code s3 ⟨h3, x3⟩ => ?_
  refine (wp_ite ..).mpr ⟨fun h hc => absurd hc h, fun hc => ?_⟩
  rcases h3 (Decidable.not_not.mp hc) with h3 | ⟨files, i5, hr, hbs, h3⟩
  · refine post_mono (post_steps (R := Ext) ?_ s3) fun code s4 h4 _ => .inl (((h3.after h2.ext).before h4).after h0)
    steps [cleanup_steps]
  have hb2 : s2.client.batch = s0.client.batch := by
    have := h2.1; unfold SameConn at this; rw [this]
  have hb3 : s3.client.batch = s2.client.batch := by
    have := h3.1; unfold SameConn at this; rw [this]
  rw [h2.chan, hch, hb2, hb] at hbs
  have h3 := h2.trans h3
  have hr := hr.after (h0.trans h2.ext)
  rw [hch] at h3 ht1 ht2 ht3
  obtain ⟨hconn, evs, he, htalk⟩ := h3
  rw [hh] at he
  have hm : MailSaid (chan s.client) m files s.client.batch
      (i1 ++ i2 ++ (i3 ++ List.map (fun l => Item.content (chan s.client) (cstr l)) (headerLines m)) ++ i5) :=
    ⟨i1, i2, i3, i5, by simp, ht1, ht2, ht3, hbs⟩
  simp only [wp_bind, wp_gets]
  refine (wp_ite ..).mpr ⟨fun hbt _ => ?_, fun hbt => ?_⟩
  · refine .inr ⟨⟨files, _, hr, hm, evs, he, htalk⟩, fun _ => hcl ▸ hconn, fun h => ?_⟩
    rw [hb3, hb2, hb, h] at hbt
    exact absurd hbt (by decide)
  · have hbf : s3.client.batch = false := by simpa using hbt
    rw [wp_bind]
    refine post_mono (cleanup_closed s3 hbf) fun _ s4 ⟨evs', he', hd, hdead⟩ _ => ?_
    refine .inr ⟨⟨files, _, hr.before ⟨evs', he'⟩, hm, evs ++ evs', by rw [he', he, List.append_assoc], fun hn => ?_⟩,
      fun h => ?_, fun _ => hdead⟩
    · obtain ⟨n1, n2⟩ := noShort_append hn
      have hq : talk evs' = ([], []) := talk_closing hd
      rw [talk_append (by rw [hq]), hq, htalk n1, List.append_nil]
    · rw [hb3, hb2, hb, h] at hbf
      exact absurd hbf (by decide)

end Verif.Proofs
