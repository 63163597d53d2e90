import Verif.Proofs.Delivered
/-!
# Which message content is sent where
-/
namespace Verif.Proofs
open Verif Verif.Model Verif.Spec

variable {α : Type} {env : Env}

/-- Only these texts are sent as message content. -/
def OnlyContent (T : Bytes → Prop) : SendKind → Bytes → Prop := fun k d => k = .content → T d

instance (T : Bytes → Prop) : Establishing (NewEvents (Allowed (OnlyContent T))) where
  askCmd := fun _ _ _ _ => .one (fun h => by cases h)
  freshLog := fun _ => .same rfl
  keep := fun _ => .same rfl
  bio := fun _ _ => .same rfl
  sock := fun _ _ => .same rfl
  socket := fun _ _ => .one trivial
  tls := fun _ _ _ => .one trivial

theorem contents_only {T : Bytes → Prop} {evs : Hist} (h : ∀ e ∈ evs, Allowed (OnlyContent T) e) : ∀ t ∈ contents evs, T t := by
  intro t ht
  obtain ⟨e, he, hm⟩ := List.mem_filterMap.mp ht
  have := h e he
  split at hm
  · cases hm
    exact this rfl
  · cases hm

theorem contents_none {T : Bytes → Prop} (hT : ∀ t, ¬ T t) {evs : Hist} (h : ∀ e ∈ evs, Allowed (OnlyContent T) e) : contents evs = [] := by
  cases hc : contents evs with
  | nil => rfl
  | cons t l => exact absurd (contents_only h t (by rw [hc]; simp)) (hT t)

section
variable {T : Bytes → Prop}

theorem sendPtrFb_only (d e t) : Steps env (NewEvents (Allowed (OnlyContent T))) (sendPtrFb d e t) :=
  sendPtrFb_steps (fun _ _ _ => .one (fun h => by cases h)) e t

theorem sendPtr_only (k d e) (h : k = .content → T (cstr d)) (hk : k ≠ .quit) :
    Steps env (NewEvents (Allowed (OnlyContent T))) (sendPtr k d e) := by
  refine sendPtr_steps (fun _ _ _ => .one ?_) e
  cases k
  · exact fun h' => by cases h'
  · exact fun _ => h rfl
  · exact absurd rfl hk

theorem setMailRecipients_only (m) : Steps env (NewEvents (Allowed (OnlyContent T))) (setMailRecipients m) := by
  have h1 : ∀ c l, Steps env (NewEvents (Allowed (OnlyContent T))) (mailFromLoop c l) := by
    intro c l
    induction l generalizing c with
    | nil => unfold mailFromLoop; steps []
    | cons f l ih => unfold mailFromLoop; steps [addLog_steps, sendPtrFb_only, ih]
  have h2 : ∀ c l, Steps env (NewEvents (Allowed (OnlyContent T))) (addMailRecipients c l) := by
    intro c l
    induction l generalizing c with
    | nil => unfold addMailRecipients; steps []
    | cons f l ih => unfold addMailRecipients; steps [addLog_steps, sendPtrFb_only, ih]
  have h3 : ∀ l, Steps env (NewEvents (Allowed (OnlyContent T))) (recipientsLoop l) := by
    intro l
    induction l with
    | nil => unfold recipientsLoop; steps []
    | cons a l ih => unfold recipientsLoop; steps [arrElems_steps, h2]
  unfold setMailRecipients
  steps [h1, h3]

/-- One address header, whatever happens. -/
theorem addressHeader_only (f : Bytes) (a : Arr MessageAddress) (h : ∀ t ∈ addressLines f a, T (cstr t)) :
    Steps env (NewEvents (Allowed (OnlyContent T))) (addressHeader f a) := by
  constructor
  intro s
  unfold addressHeader
  refine (wp_ite ..).mpr ⟨fun hc => ?_, fun hc => Preord.refl (R := NewEvents (Allowed (OnlyContent T))) s⟩
  rw [wp_bind]
  refine wp_mono (wp_and (arrElems_post a s) ((arrElems_steps (R := NewEvents (Allowed (OnlyContent T))) a).run s)) ?_ (fun _ _ h => h.2)
  rintro _ _ ⟨⟨rfl, rfl, hne⟩, _⟩
  have : Steps env (NewEvents (Allowed (OnlyContent T)))
      (do let _ ← addMailHeader f (generateHeaderAddressValues (elems a)) (-92); pure ()) := by
    have := sendPtr_only (env := env) (T := T) .content (headerLine f (generateHeaderAddressValues (elems a))) (-92)
      (fun _ => h _ (by unfold addressLines; rw [if_neg (hne hc)]; simp)) (by decide)
    unfold addMailHeader
    steps [addLog_steps]
  exact this.run _

theorem setMailHeaders_only (m : Message) (h : ∀ t ∈ headerLines m, T (cstr t)) :
    Steps env (NewEvents (Allowed (OnlyContent T))) (setMailHeaders m) := by
  have h1 := addressHeader_only (env := env) (T := T) b!"To" m.to fun t ht => h t (by simp [headerLines, ht])
  have h2 := addressHeader_only (env := env) (T := T) b!"Cc" m.cc fun t ht => h t (by simp [headerLines, ht])
  have h3 : ∀ e, Steps env (NewEvents (Allowed (OnlyContent T))) (addMailHeader b!"From" (fromHeaderValue m.from) e) := by
    intro e
    have := sendPtr_only (env := env) (T := T) .content (headerLine b!"From" (fromHeaderValue m.from)) e
      (fun _ => h _ (by simp [headerLines])) (by decide)
    unfold addMailHeader
    steps [addLog_steps]
  have h4 : ∀ e, Steps env (NewEvents (Allowed (OnlyContent T))) (sendPtr .content (subjectLine m.subject) e) := fun e =>
    sendPtr_only .content _ e (fun _ => h _ (by simp [headerLines])) (by decide)
  have h5 : ∀ e, Steps env (NewEvents (Allowed (OnlyContent T))) (sendPtr .content contentTypeLine e) := fun e =>
    sendPtr_only .content _ e (fun _ => h _ (by simp [headerLines])) (by decide)
  unfold setMailHeaders
  steps [addLog_steps, sendPtrFb_only, h1, h2, h3, h4, h5]

end

/-- No content is sent and these commands are. -/
def Speaks (cs : List Bytes) (s s' : St) : Prop := ∃ evs, s'.hist = s.hist ++ evs ∧ contents evs = [] ∧ commands evs = cs

theorem Speaks.trans {x y : List Bytes} {a b c : St} (h : Speaks x a b) (h' : Speaks y b c) : Speaks (x ++ y) a c := by
  obtain ⟨e1, h1, c1, k1⟩ := h
  obtain ⟨e2, h2, c2, k2⟩ := h'
  refine ⟨e1 ++ e2, by rw [h2, h1, List.append_assoc], ?_, ?_⟩
  · rw [contents, List.filterMap_append]
    show contents e1 ++ contents e2 = []
    rw [c1, c2]; rfl
  · rw [commands, List.filterMap_append]
    show commands e1 ++ commands e2 = _
    rw [k1, k2]

theorem silent_speaks {s s' : St} (h : NewEvents (Allowed (fun _ _ => False)) s s') : Speaks [] s s' := by
  obtain ⟨evs, h, ha⟩ := h
  refine ⟨evs, h, ?_, ?_⟩
  · rw [contents, List.filterMap_eq_nil_iff]
    intro e he
    have := ha e he
    unfold Allowed at this
    split at this <;> simp_all
  · rw [commands, List.filterMap_eq_nil_iff]
    intro e he
    have := ha e he
    unfold Allowed at this
    split at this <;> simp_all

theorem steps_speaks {m : M α} (h : Steps env (NewEvents (Allowed (fun _ _ => False))) m) (s : St) :
    post env m (fun _ => Speaks [] s) s := post_mono (post_steps h s) fun _ _ h => silent_speaks h

theorem sendPtrFb_speaks (d e t) (s : St) : post env (sendPtrFb d e t) (fun _ => Speaks [cstr d] s) s := by
  obtain ⟨ch, r, h⟩ := sendPtrFb_first (env := env) (R := NewEvents (Allowed (fun _ _ => False))) d e t s
  refine wp_mono h (fun _ s' h => ?_) (fun _ _ _ => trivial)
  obtain ⟨evs, he, c1, k1⟩ := silent_speaks h
  refine ⟨.send .cmd ch (cstr d) r :: evs, by rw [he]; simp [St.snoc], ?_, ?_⟩
  · show contents evs = []
    exact c1
  · show cstr d :: commands evs = [cstr d]
    rw [k1]

theorem sendPieces_said {items : List Item} {s0 s : St} (h : Said items s0 s) (l : List Bytes) :
    post env (sendPieces l) (fun code s' => code = 0 →
      Said (items ++ l.map fun p => .content (chan s0.client) (cstr p)) s0 s') s := by
  induction l generalizing items s with
  | nil => exact fun _ => by simpa using h
  | cons p l ih =>
    unfold sendPieces
    unfold post
    rw [wp_bind]
    refine wp_mono (sendPtr_out .content p (-95) s) ?_ (fun _ _ _ => trivial)
    intro code s1 h1
    refine (wp_ite ..).mpr ⟨fun h hc => absurd hc h, fun hc => ?_⟩
    rcases h1 with ⟨_, h1⟩ | ⟨h1, _⟩
    · have h1 := h1.said_content
      rw [h.chan] at h1
      refine post_mono (ih (h.trans h1)) fun code s2 h2 hc => ?_
      simpa using h2 hc
    · exact absurd (Decidable.not_not.mp hc) (by rw [h1]; decide)

theorem sendBodyText_said (s : St) (body : Bytes) (hb : body ≠ []) :
    post env (sendBodyText body) (fun code s' => code = 0 →
      ∃ l : List Bytes, l.flatten = body ∧ (∀ p ∈ l, 1 ≤ p.length ∧ p.length ≤ 512) ∧
        Said (l.map fun p => .content (chan s.client) (cstr p)) s s') s := by
  have h0 : Said [] s s := (Preord.refl (R := Deaf) s).said
  unfold sendBodyText
  refine (wp_ite ..).mpr ⟨fun hl => ?_, fun hl => ?_⟩
  · refine post_mono (sendPieces_said h0 _) fun code s' h hc => ?_
    exact ⟨_, by rw [bodyPieces_flatten _ _ _ (by omega), List.drop_zero], bodyPieces_size _ _ _, h hc⟩
  · rw [wp_bind]
    refine wp_mono (sendPtr_out .content body (-96) s) ?_ (fun _ _ _ => trivial)
    intro code s1 h1
    refine (wp_ite ..).mpr ⟨fun h hc => absurd hc h, fun hc _ => ?_⟩
    rcases h1 with ⟨_, h1⟩ | ⟨h1, _⟩
    · refine ⟨[body], by simp, ?_, h1.said_content⟩
      have := List.length_pos_iff.mpr hb
      simp; omega
    · exact absurd (Decidable.not_not.mp hc) (by rw [h1]; decide)

/-- What `setMailBody` sends when it reports success, with nothing assumed about what came before. -/
theorem setMailBody_sent (m : Message) (s : St) :
    post env (setMailBody m) (fun code s' => code = 0 → ∃ (files : List (Option Bytes)) (l : List Bytes) (s1 s2 : St), Reads (elems m.attachments) files s s1 ∧ Speaks [] s s1 ∧
      l.flatten = bodyText m files ∧ (∀ p ∈ l, 1 ≤ p.length ∧ p.length ≤ 512) ∧
      Said (l.map fun p => .content (chan s1.client) (cstr p)) s1 s2 ∧ Speaks [endOfData] s2 s') s := by
  unfold setMailBody
  unfold post
  rw [wp_bind]
  refine post_mono (post_and (post_deaf (addLog_steps _ _) s) (steps_speaks (addLog_steps _ _) s)) fun _ s1 ⟨h1, k1⟩ => ?_
  rw [wp_bind]
  refine post_mono (post_and (fullBody_post m s1) (steps_speaks (fullBody_steps m) s1)) fun body s2 ⟨⟨⟨files, hr, hb⟩, h2⟩, k2⟩ => ?_
  rw [wp_bind]
  refine post_mono (sendBodyText_said s2 body (hb ▸ bodyText_ne m files)) fun code s3 h3 => ?_
  refine (wp_ite ..).mpr ⟨fun h hc => absurd hc h, fun hc => ?_⟩
  obtain ⟨l, hl, hsz, h3⟩ := h3 (Decidable.not_not.mp hc)
  suffices key : post env _ (fun _ s' => Speaks [endOfData] s3 s') s3 from post_mono key fun code s4 h4 _ =>
    ⟨files, l, s2, s3, hr.after h1.ext, k1.trans k2, by rw [hl, hb], hsz, h3, h4⟩
  unfold post
  rw [wp_bind]
  refine post_mono (steps_speaks (addLog_steps _ _) s3) fun _ s4 h4 => ?_
  rw [wp_bind]
  refine post_mono (sendPtrFb_speaks _ _ _ s4) fun code s5 h5 => ?_
  have h5 : Speaks [endOfData] s3 s5 := h4.trans h5
  have rest : ∀ (p : M Int), Steps env (NewEvents (Allowed (fun _ _ => False))) p →
      post env p (fun _ s' => Speaks [endOfData] s3 s') s5 := fun p hp =>
    post_mono (steps_speaks hp s5) fun _ _ h => h5.trans h
  refine rest _ ?_
  steps [sendQuit_steps]

end Verif.Proofs
