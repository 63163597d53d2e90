import Verif.Proofs.Delivered
import Verif.Props.Auth
/-!
# C51: the MAIL FROM forms
-/
namespace Verif.Props
open Verif Verif.Model Verif.Spec

theorem Sent.ext {l : List Bytes} {s s' : St} (h : Sent l s s') : Proofs.Ext s s' := by
  obtain ⟨evs, h, _⟩ := h; exact ⟨evs, h⟩

theorem Sent.deaf {s s' : St} (h : Proofs.Deaf s s') : Sent [] s s' := by
  obtain ⟨_, evs, h1, h2⟩ := h
  refine ⟨evs, h1, ?_⟩
  unfold commands
  rw [List.filterMap_eq_nil_iff]
  intro e he
  have := h2 e he
  cases e <;> simp_all [Proofs.DeafEv]

/-- The state after having tried the forms `pre`, all answered 501. -/
def Tried (pre : List Bytes) (s s' : St) : Prop := Sent pre s s' ∧ ∀ g ∈ pre, Proofs.Ans g 501 s s'

theorem mailFromLoop_tries (env : Env) (fs : List Bytes) (hn : ∀ f ∈ fs, cstr f = f) (last : Int) (pre : List Bytes) (s0 s : St)
    (h0 : Tried pre s0 s) :
    Proofs.wp env (mailFromLoop last fs) (fun code s' =>
        (fs = [] ∧ code = last ∧ Tried pre s0 s') ∨
        ∃ a f post, fs = a ++ f :: post ∧ Sent (pre ++ a ++ [f]) s0 s' ∧ (∀ g ∈ pre ++ a, Proofs.Ans g 501 s0 s') ∧
          ((Proofs.Ans f code s0 s' ∧ (code = 501 → post = [])) ∨ code = -85 ∨ code = -86))
      (fun _ s' => ∃ a b, fs = a ++ b ∧ Sent (pre ++ a) s0 s' ∧ ∀ g ∈ (pre ++ a).dropLast, Proofs.Ans g 501 s0 s') s := by
  induction fs generalizing last pre s with
  | nil => exact .inl ⟨rfl, rfl, h0⟩
  | cons f fs ih =>
    have hf := hn f (by simp)
    unfold mailFromLoop
    rw [Proofs.wp_bind]
    refine Proofs.wp_mono ((Proofs.addLog_steps (R := Proofs.Deaf) _ _).run s) (fun _ s1 h1 => ?_) (fun _ s1 h1 => ?_)
    · have h1' : Tried pre s0 s1 := by
        refine ⟨by simpa using h0.1.trans (Sent.deaf h1), fun g hg => (h0.2 g hg).before h1.ext⟩
      rw [Proofs.wp_bind]
      refine Proofs.wp_mono (Proofs.wp_and (Proofs.sendPtrFb_out f (-85) (-86) s1 (by decide)) (sendPtrFb_sent env f (-85) (-86) s1)) ?_ ?_
      · rintro code s2 ⟨h2, h3⟩
        rw [hf] at h3
        have hs : Sent (pre ++ [f]) s0 s2 := h1'.1.trans h3
        have hp : ∀ g ∈ pre, Proofs.Ans g 501 s0 s2 := fun g hg => (h1'.2 g hg).before h3.ext
        have fin : (code = 501 → fs = []) → ((Proofs.Ans f code s0 s2 ∧ (code = 501 → fs = [])) ∨ code = -85 ∨ code = -86) := by
          intro h
          rcases h2 with h2 | ⟨h2, _⟩
          · have := h2.ans
            rw [hf] at this
            exact .inl ⟨this.after h1'.1.ext, h⟩
          · exact .inr h2
        rw [Proofs.wp_ite]
        refine ⟨fun hc => ?_, fun hc => ?_⟩
        · subst hc
          exact .inr ⟨[], f, fs, rfl, by simpa using hs, by simpa using hp, fin fun h => absurd h (by decide)⟩
        · rw [Proofs.wp_ite]
          refine ⟨fun hc' => .inr ⟨[], f, fs, rfl, by simpa using hs, by simpa using hp, fin fun h => absurd h hc'⟩, fun hc' => ?_⟩
          have hc' := Decidable.not_not.mp hc'
          subst hc'
          have ha : Proofs.Ans f 501 s0 s2 := by
            rcases h2 with h2 | ⟨h2, _⟩
            · have := h2.ans
              rw [hf] at this
              exact this.after h1'.1.ext
            · exfalso; revert h2; decide
          have ht : Tried (pre ++ [f]) s0 s2 := by
            refine ⟨hs, fun g hg => ?_⟩
            rcases List.mem_append.mp hg with hg | hg
            · exact hp g hg
            · rw [List.mem_singleton.mp hg]; exact ha
          refine Proofs.wp_mono (ih (fun g hg => hn g (by simp [hg])) 501 (pre ++ [f]) s2 ht) ?_ ?_
          · rintro code s3 (⟨rfl, rfl, h⟩ | ⟨a, g, post, rfl, h4, h5, h6⟩)
            · refine .inr ⟨[], f, [], rfl, by simpa using h.1, fun g hg => h.2 g (by simpa using Or.inl hg), .inl ⟨h.2 f (by simp), fun _ => rfl⟩⟩
            · exact .inr ⟨f :: a, g, post, rfl, by simpa using h4, by simpa using h5, h6⟩
          · rintro _ s3 ⟨a, b, rfl, h4, h5⟩
            exact ⟨f :: a, b, rfl, by simpa using h4, by simpa using h5⟩
      · rintro _ s2 ⟨_, h3⟩
        rw [hf] at h3
        exact ⟨[f], fs, rfl, h1'.1.trans h3, fun g hg => (h1'.2 g (by simpa using hg)).before h3.ext⟩
    · refine ⟨[], f :: fs, rfl, by simpa using h0.1.trans (Sent.deaf h1), fun g hg => ?_⟩
      exact (h0.2 g ((List.dropLast_sublist _).subset (by simpa using hg))).before h1.ext

/-- **C51.** In every run of the MAIL FROM loop that returns, the commands sent are the forms up to some form `f`, in the
documented order; all before it were answered 501; the result is the code `f` was answered with, which is not 501 unless there is
no further form, or -85 or -86 if `f` could not be sent or was not answered. -/
theorem C51_mail_from_fallback (env : Env) (a : MessageAddress) (ha : 0 ∉ a.email ∧ 0 ∉ a.displayName) (s s' : St) (code : Int)
    (h : mailFromLoop 0 (mailFormats a) env s = (.ok code, s')) :
    ∃ pre f post evs, senderForms a = pre ++ f :: post ∧ s'.hist = s.hist ++ evs ∧ commands evs = pre ++ [f] ∧
      (∀ g ∈ pre, Answered evs g 501) ∧
      ((Answered evs f code ∧ (code = 501 → post = [])) ∨ code = -85 ∨ code = -86) := by
  rw [Proofs.mailFormats_eq] at h
  have key := mailFromLoop_tries env (senderForms a) (Proofs.senderForms_nul ha) 0 [] s s ⟨⟨[], by simp, rfl⟩, by simp⟩
  unfold Proofs.wp at key
  rw [h] at key
  rcases key with ⟨h, _⟩ | ⟨pre, f, post, hf, ⟨evs, he, hc⟩, h1, h2⟩
  · simp [senderForms] at h
  · have conv : ∀ g c, Proofs.Ans g c s s' → Answered evs g c := by
      rintro g c ⟨evs', he', h⟩
      rw [he] at he'
      rwa [← List.append_cancel_left he'] at h
    refine ⟨pre, f, post, evs, hf, he, by simpa using hc, fun g hg => conv g _ (h1 g (by simpa using hg)), ?_⟩
    rcases h2 with ⟨h2, h3⟩ | h2
    · exact .inl ⟨conv f _ h2, h3⟩
    · exact .inr h2

/-- **C51**, for runs that do not return (a blocking call that never ends, a loop that never ends): the commands sent are still an
initial part of the forms, and a form was only tried after all before it were answered 501. -/
theorem C51_mail_from_order_always (env : Env) (a : MessageAddress) (ha : 0 ∉ a.email ∧ 0 ∉ a.displayName) (s s' : St) (e : Stop)
    (h : mailFromLoop 0 (mailFormats a) env s = (.stop e, s')) :
    ∃ pre evs, pre <+: senderForms a ∧ s'.hist = s.hist ++ evs ∧ commands evs = pre ∧ ∀ g ∈ pre.dropLast, Answered evs g 501 := by
  rw [Proofs.mailFormats_eq] at h
  have key := mailFromLoop_tries env (senderForms a) (Proofs.senderForms_nul ha) 0 [] s s ⟨⟨[], by simp, rfl⟩, by simp⟩
  unfold Proofs.wp at key
  rw [h] at key
  obtain ⟨pre, post, hf, ⟨evs, he, hc⟩, h1⟩ := key
  refine ⟨pre, evs, ⟨post, hf.symm⟩, he, by simpa using hc, fun g hg => ?_⟩
  obtain ⟨evs', he', h⟩ := h1 g (by simpa using hg)
  rw [he] at he'
  rwa [← List.append_cancel_left he'] at h

/-- **C51.** The three forms are different texts, so the answers above cannot be confused. -/
theorem C51_forms_differ (a : MessageAddress) : (senderForms a).Nodup := by
  have h : ∀ x y : Bytes, x.length ≠ y.length → x ≠ y := fun x y h e => h (by rw [e])
  simp only [senderForms, List.nodup_cons, List.mem_cons, List.not_mem_nil, or_false, not_or, List.nodup_nil, not_false_eq_true,
    and_true]
  refine ⟨⟨h _ _ ?_, h _ _ ?_⟩, h _ _ ?_⟩ <;> simp <;> omega

/-- Non-vacuity: a server that refuses the first form with 501 and takes the second; one that refuses all three; and one that
answers 550 at once. -/
def sender : MessageAddress := { email := b!"me@here.org", displayName := b!"Me" }
def opened : St := { client := { (fresh .smtp).client with log := some .fresh, sock := 5 }, hist := [] }

example : (0 ∉ sender.email ∧ 0 ∉ sender.displayName) ∧
    (let r := mailFromLoop 0 (mailFormats sender) (scripted (clear [b!"501 no\r\n", b!"250 ok\r\n"])) opened
     (r.1, commands r.2.hist)) = (.ok 250, [b!"MAIL FROM: <me@here.org>\r\n", b!"MAIL FROM: <Me me@here.org>\r\n"]) ∧
    (let r := mailFromLoop 0 (mailFormats sender) (scripted (clear [b!"501 no\r\n", b!"501 no\r\n", b!"501 no\r\n"])) opened
     (r.1, commands r.2.hist)) = (.ok 501, senderForms sender) ∧
    (let r := mailFromLoop 0 (mailFormats sender) (scripted (clear [b!"550 no\r\n"])) opened
     (r.1, commands r.2.hist)) = (.ok 550, [b!"MAIL FROM: <me@here.org>\r\n"]) := by decide +kernel

end Verif.Props
