import Verif.Proofs.Speech
import Verif.Proofs.ToldBody
import Verif.Props.Base64
import Verif.Spec.Limits
/-!
# The length of commands
-/
namespace Verif.Proofs
open Verif Verif.Model Verif.Spec

variable {env : Env} {m : Message}

/-- Commands are within the limits; about content nothing is said. -/
abbrev Fitting : Texts := fun c k d => k = .cmd → (∀ cr, c = some cr → cr.username.length + cr.password.length ≤ 9000) → CommandFits c d

theorem Fitting.short {c : Option Credential} {k : SendKind} {d : Bytes} (h : d.length ≤ 512) : Fitting c k (cstr d) :=
  fun _ _ => .inl (Nat.le_trans (cstr_length_le d) h)

theorem encode_alone {s : Bytes} (h : s.length < 49152) : ∀ b ∈ Base64.encode s, Spec.Base64.Alphabet b := by
  intro b hb
  have := (Props.C03_single_line_iff s).mpr h b hb
  rcases Props.C03_encode_alphabet s b hb with h | h | h
  · exact h
  · exact absurd h this.1
  · exact absurd h this.2

theorem encode_len {s : Bytes} (h : s.length < 49152) : (Base64.encode s).length = 4 * ((s.length + 2) / 3) := by
  rw [Props.C03_encode_length, Nat.div_eq_of_lt h, Nat.mul_zero, Nat.add_zero]

theorem loginLine_fitting {s : Bytes} (h : s.length ≤ 9000) : AuthLine (authLoginLine s) ∧ (authLoginLine s).length ≤ authLimit := by
  refine ⟨.inr ⟨_, rfl, encode_alone (by omega)⟩, ?_⟩
  have := encode_len (s := s) (by omega)
  simp only [authLoginLine, List.length_append, this, authLimit, List.length_cons, List.length_nil]
  omega

theorem auth_fitting : AuthTexts Fitting := by
  intro cr d hd _ hc
  have hl := hc cr rfl
  refine .inr ⟨rfl, ?_⟩
  simp only [List.mem_cons, List.not_mem_nil, or_false] at hd
  rcases hd with rfl | rfl | rfl | rfl | rfl
  · refine ⟨.inl ⟨b!"PLAIN " ++ Base64.encode ([0] ++ cr.username ++ [0] ++ cr.password) ++ b!"\r\n", by simp [authPlain]⟩, ?_⟩
    have h1 : ([0] ++ cr.username ++ [0] ++ cr.password : Bytes).length = cr.username.length + cr.password.length + 2 := by simp; omega
    have := encode_len (s := [0] ++ cr.username ++ [0] ++ cr.password) (by omega)
    unfold authPlain authLimit
    rw [List.length_append, List.length_append, this, h1]
    simp only [List.length_cons, List.length_nil]
    omega
  · exact ⟨.inl ⟨b!"LOGIN\r\n", rfl⟩, by decide⟩
  · exact loginLine_fitting (by omega)
  · exact loginLine_fitting (by omega)
  · refine ⟨.inl ⟨b!"XOAUTH2 " ++ Base64.encode (b!"user=" ++ cr.username ++ [1] ++ b!"auth=Bearer " ++ cr.password ++ [1, 1]) ++ b!"\r\n",
      by simp [authXOAuth2]⟩, ?_⟩
    have h1 : (b!"user=" ++ cr.username ++ [1] ++ b!"auth=Bearer " ++ cr.password ++ [1, 1] : Bytes).length =
        cr.username.length + cr.password.length + 20 := by simp; omega
    have := encode_len (s := b!"user=" ++ cr.username ++ [1] ++ b!"auth=Bearer " ++ cr.password ++ [1, 1]) (by omega)
    unfold authXOAuth2 authLimit
    rw [List.length_append, List.length_append, this, h1]
    simp only [List.length_cons, List.length_nil]
    omega

theorem content_fitting (d : Bytes) (c) : Fitting c .content d := fun h => by cases h

theorem sendMailConnected_fitting (hm : AddressesFit m) : Steps env (Saying Fitting) (sendMailConnected m) := by
  have hfrom := hm.path m.from (by simp)
  have hname := hm.name
  unfold pathLimit at hfrom
  have h1 : Steps env (Saying Fitting) (setMailRecipients m) := by
    unfold setMailRecipients
    have h1 := fun c => mailFromLoop_saying (env := env) (D := Fitting) (mailFormats m.from) (fun f hf c => Fitting.short (by
      simp only [mailFormats, List.mem_cons, List.not_mem_nil, or_false] at hf
      rcases hf with rfl | rfl | rfl <;> simp only [List.length_append, List.length_cons, List.length_nil] <;> omega)) c
    have h2 := recipientsLoop_saying (env := env) (D := Fitting) [m.to, m.cc, m.bcc] (fun r hr a ha c => Fitting.short (by
      have hmem : a ∈ recipients m := by
        simp only [List.mem_cons, List.not_mem_nil, or_false] at hr
        simp only [recipients, List.mem_append]
        rcases hr with rfl | rfl | rfl
        · exact .inl (.inl ha)
        · exact .inl (.inr ha)
        · exact .inr ha
      have := hm.path a (by simp [hmem])
      unfold pathLimit at this
      simp only [rcptTo, List.length_append, List.length_cons, List.length_nil]
      omega))
    steps [h1]
  have h2 := setMailHeaders_saying (env := env) (D := Fitting) m (fun _ _ c => content_fitting _ c) (fun _ => Fitting.short (d := dataCmd) (by decide))
  have h3 : Steps env (Saying Fitting) (setMailBody m) := by
    have h1 : ∀ t, Steps env (Saying Fitting) (sendBodyText t) := fun t => sendBodyText_saying t fun _ _ c => content_fitting _ c
    have h2 := cmd_saying (env := env) (D := Fitting) (d := endOfData) (fun _ => Fitting.short (by decide)) (-97) (-98)
    unfold setMailBody
    steps [addLog_steps, sendQuit_steps, fullBody_steps, h1]
  unfold sendMailConnected sendMailRest
  steps [cleanup_steps, Steps.modify]
  exact Saying.same rfl rfl

theorem sendMail_fitting (hm : AddressesFit m) : Steps env (Saying Fitting) (sendMail m) := by
  have h1 := sendMailConnected_fitting (env := env) hm
  have h2 := establish_saying (env := env) (D := Fitting) auth_fitting (fun _ => Fitting.short (d := ehloCmd) (by decide))
    (fun _ => Fitting.short (d := startTlsCmd) (by decide))
  unfold sendMail
  steps []

end Verif.Proofs
