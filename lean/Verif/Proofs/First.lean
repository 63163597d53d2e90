import Verif.Proofs.Events
/-!
# The first thing a command does is to be sent
-/
namespace Verif.Proofs
open Verif Verif.Model

variable {α : Type} {env : Env} {R : St → St → Prop}

/-- Used with `wp` for programs that end anyhow. -/
theorem Steps.after {m : M α} (h : Steps env R m) [hp : Preord R] {s0 s : St} (h0 : R s0 s) :
    wp env m (fun _ => R s0) (fun _ => R s0) s :=
  wp_mono (h.run s) (fun _ _ => hp.trans h0) (fun _ _ => hp.trans h0)

theorem wp_bind_steps {β : Type} {m : M α} {f : α → M β} [hp : Preord R] {s s0 : St}
    (hm : wp env m (fun _ => R s0) (fun _ => R s0) s) (hf : ∀ a, Steps env R (f a)) :
    wp env (m >>= f) (fun _ => R s0) (fun _ => R s0) s := by
  rw [wp_bind]
  exact wp_mono hm (fun a s' h => (hf a).after h) (fun _ _ h => h)

/-- `m` first sends `d` and then stays inside `R`. -/
def SendsFirst (env : Env) (R : St → St → Prop) (k : SendKind) (d : Bytes) (m : M α) : Prop :=
  ∀ s, ∃ ch r, wp env m (fun _ => R (St.snoc s (.send k ch d r))) (fun _ => R (St.snoc s (.send k ch d r))) s

theorem SendsFirst.bind {β : Type} [Preord R] {k d} {m : M α} {f : α → M β} (hm : SendsFirst env R k d m)
    (hf : ∀ a, Steps env R (f a)) : SendsFirst env R k d (m >>= f) := by
  intro s
  obtain ⟨ch, r, h⟩ := hm s
  exact ⟨ch, r, wp_bind_steps h hf⟩

theorem SendsFirst.gets {β : Type} {k d} {f : Client → β} {g : β → M α} (h : ∀ b, SendsFirst env R k d (g b)) :
    SendsFirst env R k d (M.gets f >>= g) := by
  intro s
  obtain ⟨ch, r, h⟩ := h (f s.client) s
  exact ⟨ch, r, by rw [wp_bind, wp_gets]; exact h⟩

theorem SendsFirst.sysSend {β : Type} [hp : Preord R] {k ch d} {g : SendRes → M β} (h : ∀ r, Steps env R (g r)) :
    SendsFirst env R k d (sysSend k ch d >>= g) := by
  intro s
  refine ⟨ch, normSend (nonblocking ch.fd s.hist) d.length (env.send s.hist ch d), ?_⟩
  unfold Model.sysSend
  simp only [wp_bind, wp_ask, wp_ite, wp_stop, wp_pure]
  exact ⟨fun _ => hp.refl _, fun _ => (h _).after (hp.refl _)⟩

section
variable [hR : Cleaning R]

theorem sendRawWith_first {f : M Unit} (hf : Steps env R f) (k d e) : SendsFirst env R k (cstr d) (sendRawWith f k d e) := by
  unfold sendRawWith
  refine .gets fun sock => .sysSend fun r => ?_
  steps [setErrNo_steps]

theorem sendRawFb_first (d e t) : SendsFirst env R .cmd (cstr d) (sendRawFb d e t) := by
  unfold sendRawFb
  refine .bind (sendRawWith_first cleanup_steps _ _ _) fun r => ?_
  steps [getRawReply_steps, cleanup_steps]

theorem sendPtrFb_first (d e t) : SendsFirst env R .cmd (cstr d) (sendPtrFb d e t) := by
  intro s
  unfold sendPtrFb
  cases hp : s.client.ptrRaw
  · cases hk : (s.client.kind == .smtp || s.client.bio.isNone)
    · simp only [Bool.or_eq_false_iff, Option.isNone_eq_false_iff] at hk
      obtain ⟨b, hb⟩ := Option.isSome_iff_exists.mp hk.2
      have : SendsFirst env R .cmd (cstr d) (do
          match ← sysSend .cmd (.tls b.id b.fd) (cstr d) with
          | .fail _ => do
            setErrNo (← M.ask' (·.tlsErr))
            cleanup
            pure e
          | _ => pure (0 : Int) : M Int) := by
        refine .sysSend fun r => ?_
        steps [setErrNo_steps, cleanup_steps]
      obtain ⟨ch, r, h⟩ := this s
      refine ⟨ch, r, ?_⟩
      rw [wp_bind, wp_gets, hp, wp_ite]
      refine ⟨fun h => by simp at h, fun _ => ?_⟩
      unfold sendFb
      simp only [wp_bind, wp_gets, hk.1, hb, Option.isNone_some, Bool.or_self, wp_ite, sendTlsFb]
      refine ⟨fun h => by simp at h, fun _ => ?_⟩
      unfold sendBioWith
      rw [wp_bind, wp_gets, hb]
      dsimp only
      refine wp_mono h (fun a s' h' => ⟨fun _ => h', fun _ => ?_⟩) (fun _ _ h' => h')
      refine wp_mono (getTlsReply_steps.after h') (fun a s'' h'' => ⟨fun _ => h'', fun _ => ?_⟩) (fun _ _ h' => h')
      exact cleanup_steps.after h''
    · obtain ⟨ch, r, h⟩ := sendRawFb_first (env := env) (R := R) d e t s
      refine ⟨ch, r, ?_⟩
      simp only [wp_bind, wp_gets, hp, wp_ite, sendFb, hk]
      exact ⟨fun h => by simp at h, fun _ => ⟨fun _ => h, fun h => by simp at h⟩⟩
  · obtain ⟨ch, r, h⟩ := sendRawFb_first (env := env) (R := R) d e t s
    refine ⟨ch, r, ?_⟩
    simp only [wp_bind, wp_gets, hp, wp_ite]
    exact ⟨fun _ => h, fun h => by simp at h⟩

end

end Verif.Proofs
