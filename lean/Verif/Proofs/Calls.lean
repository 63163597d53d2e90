import Verif.Proofs.Frame
/-!
# Invariants over whole lives
-/
namespace Verif.Proofs
open Verif Verif.Model

variable {env : Env}

/-- Relations that only look at one member of the client which `sendMail` never changes. -/
theorem kind_anything : Anything (fun s s' : St => s'.client.kind = s.client.kind) where
  refl := fun _ => rfl
  trans := fun h h' => h'.trans h
  log := fun _ _ _ _ _ _ _ => rfl
  errno := fun _ _ => rfl
  resp := fun _ _ => rfl
  auth := fun _ _ => rfl
  fcntlGet := fun _ _ _ => rfl
  fcntlSet := fun _ _ _ _ => rfl
  select := fun _ _ _ => rfl
  sockopt := fun _ _ _ => rfl
  resolve := fun _ _ _ => rfl
  connect := fun _ _ _ _ => rfl
  readFile := fun _ _ _ => rfl
  sleep := fun _ => rfl
  recv := fun _ _ _ => rfl
  disconnected := fun _ => rfl
  ctx := fun _ _ => rfl
  noBio := fun _ => rfl
  noSock := fun _ => rfl
  close := fun _ _ => rfl
  bioFree := fun _ _ => rfl
  quit := fun _ _ _ => rfl
  connected := fun _ => rfl
  send := fun _ _ _ _ _ => rfl
  freshLog := fun _ => rfl
  keep := fun _ => rfl
  bio := fun _ _ => rfl
  sock := fun _ _ => rfl
  socket := fun _ _ => rfl
  tls := fun _ _ _ => rfl

/-- Once set inside the session code, the flag stays. -/
theorem sticky_anything : Anything (fun s s' : St => s.client.ptrRaw = true → s'.client.ptrRaw = true) where
  refl := fun _ h => h
  trans := fun h h' x => h' (h x)
  log := fun _ _ _ _ _ _ _ h => h
  errno := fun _ _ h => h
  resp := fun _ _ h => h
  auth := fun _ _ h => h
  fcntlGet := fun _ _ _ h => h
  fcntlSet := fun _ _ _ _ h => h
  select := fun _ _ _ h => h
  sockopt := fun _ _ _ h => h
  resolve := fun _ _ _ h => h
  connect := fun _ _ _ _ h => h
  readFile := fun _ _ _ h => h
  sleep := fun _ h => h
  recv := fun _ _ _ h => h
  disconnected := fun _ h => h
  ctx := fun _ _ h => h
  noBio := fun _ h => h
  noSock := fun _ h => h
  close := fun _ _ h => h
  bioFree := fun _ _ h => h
  quit := fun _ _ _ h => h
  connected := fun _ h => h
  send := fun _ _ _ _ _ h => h
  freshLog := fun _ h => h
  keep := fun _ _ => rfl
  bio := fun _ _ h => h
  sock := fun _ _ h => h
  socket := fun _ _ h => h
  tls := fun _ _ _ h => h

/-- `I` is an invariant of all API calls; `J` holds when a run stops. -/
structure CallInv (env : Env) (ok : Call → Prop) (I J : St → Prop) : Prop where
  stop : ∀ s, I s → J s
  event : ∀ s c, (∀ b, c ≠ .setAcceptSelfSignedCert b) → I s → I (St.snoc s (.call c))
  serverName : ∀ s v, I s → I { s with client := { s.client with serverName := v } }
  port : ∀ s v, I s → I { s with client := { s.client with port := v } }
  batch : ∀ s v, I s → I { s with client := { s.client with batch := v } }
  timeout : ∀ s v, I s → I { s with client := { s.client with timeout := v } }
  credential : ∀ s v, I s → I { s with client := { s.client with credential := v } }
  keep : ∀ s b, ok (.setKeepUsingBaseSendCommands b) → I s → I { s with client := { s.client with keep := b, ptrRaw := b } }
  accept : ∀ s b, I s → I { s with client := { s.client with acceptSelfSigned := b }, hist := s.hist ++ [.call (.setAcceptSelfSignedCert b)] }
  sendMail : ∀ s m, ok (.sendMail m) → I s → wp env (sendMail m) (fun _ => I) (fun _ => J) s

theorem CallInv.doCall {ok : Call → Prop} {I J : St → Prop} (h : CallInv env ok I J) (c : Call) (hc : ok c) (s : St) (hs : I s) :
    wp env (doCall c) (fun _ => I) (fun _ => J) s := by
  unfold Model.doCall
  rw [wp_bind, wp_emit]
  have he : (∀ b, c ≠ .setAcceptSelfSignedCert b) → I { s with hist := s.hist ++ [.call c] } := fun hn => h.event s c hn hs
  cases c with
  | setServerName p =>
    have he := he nofun
    dsimp only
    unfold setServerName
    cases checkName p with
    | error e => cases e <;> first | exact he | exact h.stop _ he
    | ok name => exact h.serverName _ _ he
  | setServerPort n => exact h.port _ _ (he nofun)
  | setBatchMode b => exact h.batch _ _ (he nofun)
  | setCommandTimeout n => exact h.timeout _ _ (he nofun)
  | setCredentials c => exact h.credential _ _ (he nofun)
  | setKeepUsingBaseSendCommands b => exact h.keep _ _ hc (he nofun)
  | setAcceptSelfSignedCert b => exact h.accept _ _ hs
  | sendMail m =>
    dsimp only
    rw [wp_bind]
    exact wp_mono (h.sendMail _ m hc (he nofun)) (fun _ _ h => h) (fun _ _ h => h)

theorem CallInv.runCalls {ok : Call → Prop} {I J : St → Prop} (h : CallInv env ok I J) (cs : List Call) (hc : ∀ c ∈ cs, ok c) (s : St) (hs : I s) :
    wp env (runCalls cs) (fun _ => I) (fun _ => J) s := by
  induction cs generalizing s with
  | nil => exact hs
  | cons c cs ih =>
    unfold Model.runCalls
    rw [wp_bind]
    refine wp_mono (h.doCall c (hc c (by simp)) s hs) ?_ (fun _ _ h => h)
    intro _ s1 h1
    rw [wp_bind]
    refine wp_mono (ih (fun c h => hc c (by simp [h])) s1 h1) ?_ (fun _ _ h => h)
    intro _ s2 h2
    exact h2

theorem CallInv.life {ok : Call → Prop} {I J : St → Prop} (h : CallInv env ok I J)
    (hd : ∀ s, I s → wp env cleanup (fun _ => J) (fun _ => J) (St.snoc s .destroy))
    (cs : List Call) (hc : ∀ c ∈ cs, ok c) (s : St) (hs : I s) : J (Model.life cs env s).2 := by
  have : wp env (Model.life cs) (fun _ => J) (fun _ => J) s := by
    unfold Model.life Model.destroy
    rw [wp_bind]
    refine wp_mono (h.runCalls cs hc s hs) ?_ (fun _ _ h => h)
    intro _ s1 h1
    rw [wp_bind, wp_bind, wp_emit]
    exact wp_mono (hd s1 h1) (fun _ _ h => h) (fun _ _ h => h)
  unfold wp at this
  split at this <;> (rename_i e; rw [e]; exact this)

theorem state_of {I : St → Prop} {α : Type} {m : M α} {s : St} (h : wp env m (fun _ => I) (fun _ => I) s) : I (m env s).2 := by
  unfold wp at h
  split at h <;> (rename_i e; rw [e]; exact h)

end Verif.Proofs
