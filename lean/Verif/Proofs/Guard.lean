import Verif.Proofs.Exchange
/-!
# Relations that know which channel is used

Like `Verif.Proofs.Frame`, for relations that care about the channel on which something is sent or read. `D` says what is sent.
-/
namespace Verif.Proofs
open Verif Verif.Model

variable {α : Type} {env : Env} {R : St → St → Prop} {D : SendKind → Bytes → Prop}

/-- What is sent on which channel, given the state of the client. STARTTLS on the socket itself has a case of its own; `D .quit startTlsCmd`
(never needed for a QUIT) marks whether it may occur. -/
inductive Says (D : SendKind → Bytes → Prop) (c : Client) : SendKind → Chan → Bytes → Prop
  | clear {k : SendKind} {d : Bytes} : D k (cstr d) → c.ptrRaw = true ∨ c.kind = .smtp ∨ (k = .cmd ∧ c.bio = none) → Says D c k (.raw c.sock) (cstr d)
  | tls {k : SendKind} {d : Bytes} {b : Bio} : D k (cstr d) → c.kind ≠ .smtp → c.bio = some b → Says D c k (.tls b.id b.fd) (cstr d)
  | upgrade : D .cmd startTlsCmd → D .quit startTlsCmd → c.kind = .opportunistic → Says D c .cmd (.raw c.sock) (cstr startTlsCmd)

/-- Relations kept by the part of the session code after the connection was established. -/
class Guarded (D : SendKind → Bytes → Prop) (R : St → St → Prop) : Prop extends Harmless R where
  quitOk : D .quit quitCmd
  sleep : ∀ s, R s (St.snoc s .sleep)
  recvRaw : ∀ s r, R s (St.snoc s (.recv (.raw s.client.sock) r))
  recvTls : ∀ s b r, s.client.bio = some b → R s (St.snoc s (.recv (.tls b.id b.fd) r))
  send : ∀ s k c d r, Says D s.client k c d → R s (St.snoc s (.send k c d r))
  closed : ∀ (env : Env) s, wp env closeSession (fun _ s' => R s s') (fun _ s' => R s s') s

/-- … and by the start of the transmission. -/
class GuardedMail (D : SendKind → Bytes → Prop) (R : St → St → Prop) : Prop extends Guarded D R where
  readFile : ∀ s n r, R s (St.snoc s (.readFile n r))
  connected : ∀ s, R s { s with client := { s.client with isConnected := true } }

section
variable [hR : Guarded D R]
include D
open Guarded

theorem gd_sleep : Steps env R sysSleep := Steps.emit fun s => hR.sleep s

theorem gd_recvRaw (s : St) : wp env (sysRecv (.raw s.client.sock)) (fun _ => R s) (fun _ => R s) s := by
  unfold sysRecv
  rw [wp_bind, wp_ask, wp_ite]
  exact ⟨fun _ => hR.recvRaw s _, fun _ => hR.recvRaw s _⟩

theorem gd_rawReplyLoop (n w a g) : Steps env R (rawReplyLoop n w a g) := by
  induction n generalizing w a g with
  | zero => unfold rawReplyLoop; steps []
  | succ n ih =>
    constructor
    intro s
    unfold rawReplyLoop
    rw [wp_bind, wp_gets, wp_bind, wp_gets, wp_bind]
    refine wp_mono (gd_recvRaw (D := D) s) ?_ (fun _ _ h => h)
    intro r s1 h1
    refine wp_mono (Steps.run (?_ : Steps env R _) s1) (fun _ _ h => hR.trans h1 h) (fun _ _ h => hR.trans h1 h)
    have sl := gd_sleep (D := D) (env := env) (R := R)
    steps [ih, sl]

theorem gd_getRawReply : Steps env R getRawReply := by
  unfold getRawReply
  have := gd_rawReplyLoop (D := D) (env := env) (R := R)
  steps [setNonBlocking_steps, setBlocking_steps, this, addLog_steps, setLastServerResponse_steps]

theorem gd_bioRead : Steps env R bioRead := by
  constructor
  intro s
  unfold bioRead
  rw [wp_bind, wp_gets]
  cases hb : s.client.bio with
  | none => exact hR.refl s
  | some b =>
    dsimp only
    unfold sysRecv
    rw [wp_bind, wp_ask, wp_ite]
    exact ⟨fun _ => hR.recvTls s b _ hb, fun _ => hR.recvTls s b _ hb⟩

theorem gd_waitLoop (n) : Steps env R (waitLoop bioRead n) := by
  have sl := gd_sleep (D := D) (env := env) (R := R)
  have br := gd_bioRead (D := D) (env := env) (R := R)
  induction n with
  | zero => unfold waitLoop; steps []
  | succ n ih => unfold waitLoop; steps []

theorem gd_getTlsReply : Steps env R getTlsReply := by
  unfold getTlsReply
  have := gd_waitLoop (D := D) (env := env) (R := R)
  steps [this, addLog_steps, setLastServerResponse_steps]

theorem gd_getServerReply : Steps env R getServerReply := by
  unfold getServerReply
  have h1 := gd_getRawReply (D := D) (env := env) (R := R)
  have h2 := gd_getTlsReply (D := D) (env := env) (R := R)
  steps []

/-- Reading from a fixed socket; it does not change meanwhile. -/
theorem gd_waitLoopRaw (n : Nat) (s : St) : wp env (waitLoop (sysRecv (.raw s.client.sock)) n) (fun _ => R s) (fun _ => R s) s := by
  induction n generalizing s with
  | zero =>
    unfold waitLoop
    rw [wp_bind]
    exact wp_mono (gd_recvRaw (D := D) s) (fun _ _ h => h) (fun _ _ h => h)
  | succ n ih =>
    unfold waitLoop
    rw [wp_bind]
    unfold sysRecv
    rw [wp_bind, wp_ask, wp_ite]
    have h1 : ∀ r, R s (St.snoc s (.recv (.raw s.client.sock) r)) := hR.recvRaw s
    refine ⟨fun _ => h1 _, fun _ => ?_⟩
    rw [wp_pure]
    have tail : ∀ r, wp env (do sysSleep; waitLoop (sysRecv (.raw s.client.sock)) n) (fun _ => R s) (fun _ => R s) (St.snoc s (.recv (.raw s.client.sock) r)) := by
      intro r
      unfold sysSleep
      rw [wp_bind, wp_emit]
      have h2 : R s (St.snoc (St.snoc s (.recv (.raw s.client.sock) r)) .sleep) := hR.trans (h1 r) (hR.sleep _)
      exact wp_mono (ih (St.snoc (St.snoc s (.recv (.raw s.client.sock) r)) .sleep)) (fun _ _ h => hR.trans h2 h) (fun _ _ h => hR.trans h2 h)
    have := tail (normRecv (nonblocking (Chan.raw s.client.sock).fd s.hist) (env.recv s.hist (Chan.raw s.client.sock)))
    revert this
    generalize normRecv (nonblocking (Chan.raw s.client.sock).fd s.hist) (env.recv s.hist (Chan.raw s.client.sock)) = r
    intro this
    cases r with
    | data d => exact h1 _
    | eof => exact this
    | err => exact this
    | never => exact this

theorem gd_checkServerGreetings : Steps env R checkServerGreetings := by
  constructor
  intro s
  unfold checkServerGreetings
  have gr := fun r => greetingResult_steps (env := env) (R := R) r
  rw [wp_bind, wp_gets, wp_ite]
  refine ⟨fun _ => ?_, fun _ => ?_⟩
  · rw [wp_bind, wp_gets, wp_bind]
    exact wp_mono ((gd_waitLoop (D := D) (R := R) _).run s) (fun r s1 h1 => wp_mono ((gr r).run s1) (fun _ _ h => hR.trans h1 h) (fun _ _ h => hR.trans h1 h))
      (fun _ _ h => h)
  · rw [wp_bind, wp_gets, wp_bind, wp_gets, wp_bind]
    exact wp_mono (gd_waitLoopRaw (D := D) _ s) (fun r s1 h1 => wp_mono ((gr r).run s1) (fun _ _ h => hR.trans h1 h) (fun _ _ h => hR.trans h1 h))
      (fun _ _ h => h)

theorem gd_ehloLoop (t n o) : Steps env R (ehloLoop t n o) := by
  have h1 := gd_getServerReply (D := D) (env := env) (R := R)
  induction n generalizing o with
  | zero => unfold ehloLoop; steps []
  | succ n ih => unfold ehloLoop; steps [lastResponseText_steps, ih]

theorem gd_sysSend {k c d} (s : St) (h : Says D s.client k c d) : wp env (sysSend k c d) (fun _ => R s) (fun _ => R s) s := by
  unfold sysSend
  rw [wp_bind, wp_ask, wp_ite]
  exact ⟨fun _ => hR.send s k c d _ h, fun _ => hR.send s k c d _ h⟩

theorem gd_sendRawWith {f : M Unit} (hf : Steps env R f) {k d} (e : Int) (s : St) (h : Says D s.client k (.raw s.client.sock) (cstr d)) :
    wp env (sendRawWith f k d e) (fun _ => R s) (fun _ => R s) s := by
  unfold sendRawWith
  rw [wp_bind, wp_gets, wp_bind]
  refine wp_mono (gd_sysSend (R := R) s h) ?_ (fun _ _ h => h)
  intro r s1 h1
  refine wp_mono (Steps.run (?_ : Steps env R _) s1) (fun _ _ h => hR.trans h1 h) (fun _ _ h => hR.trans h1 h)
  steps [setErrNo_steps]

theorem gd_sendBioWith {f : M Unit} (hf : Steps env R f) {k d} (hd : D k (cstr d)) (e : Int) (s : St) (hk : s.client.kind ≠ .smtp) :
    wp env (sendBioWith f k d e) (fun _ => R s) (fun _ => R s) s := by
  unfold sendBioWith
  rw [wp_bind, wp_gets]
  cases hb : s.client.bio with
  | none =>
    refine Steps.run (?_ : Steps env R _) s
    steps [setErrNo_steps]
  | some b =>
    dsimp only
    rw [wp_bind]
    refine wp_mono (gd_sysSend (R := R) s (.tls hd hk hb)) ?_ (fun _ _ h => h)
    intro r s1 h1
    refine wp_mono (Steps.run (?_ : Steps env R _) s1) (fun _ _ h => hR.trans h1 h) (fun _ _ h => hR.trans h1 h)
    steps [setErrNo_steps]

theorem gd_sendPtrWith {f : M Unit} (hf : Steps env R f) {k d} (hd : D k (cstr d)) (e : Int) : Steps env R (sendPtrWith f k d e) := by
  constructor
  intro s
  unfold sendPtrWith
  rw [wp_bind, wp_gets, wp_bind, wp_gets, wp_ite]
  refine ⟨fun h => gd_sendRawWith (D := D) hf e s (.clear hd ?_), fun h => gd_sendBioWith hf hd e s ?_⟩
  · simp only [Bool.or_eq_true, beq_iff_eq] at h
    rcases h with h | h
    · exact .inl h
    · exact .inr (.inl h)
  · intro hk
    simp [hk] at h

theorem gd_sendQuitWith {f : M Unit} (hf : Steps env R f) : Steps env R (sendQuitWith f) := by
  unfold sendQuitWith
  have := gd_sendPtrWith (R := R) hf (d := quitCmd) (k := .quit) hR.quitOk (-99)
  steps [addLog_steps]

theorem gd_cleanupN (n) : Steps env R (cleanupN n) := by
  induction n with
  | zero => unfold cleanupN; steps []
  | succ n ih =>
    unfold cleanupN
    have hq := gd_sendQuitWith (D := D) ih
    have hc : Steps env R closeSession := ⟨fun s => hR.closed env s⟩
    steps []

theorem gd_cleanup : Steps env R cleanup := by
  unfold cleanup
  have := gd_cleanupN (D := D) (env := env) (R := R)
  steps [this]

theorem gd_sendPtr {k d} (hd : D k (cstr d)) (e : Int) : Steps env R (sendPtr k d e) := gd_sendPtrWith (gd_cleanup (D := D)) hd e

theorem gd_sendQuit : Steps env R sendQuit := gd_sendQuitWith (D := D) (gd_cleanup (D := D))

theorem gd_after {send m : M Int} (hm : Steps env R m) (e t : Int) (s : St) (hs : wp env send (fun _ => R s) (fun _ => R s) s) :
    wp env (do
      if (← send) ≠ 0 then pure e
      else do
        let code ← m
        if code ≠ -1 then pure code
        else do
          cleanup
          pure t) (fun _ => R s) (fun _ => R s) s := by
  rw [wp_bind]
  refine wp_mono hs ?_ (fun _ _ h => h)
  intro r s1 h1
  refine wp_mono (Steps.run (?_ : Steps env R _) s1) (fun _ _ h => hR.trans h1 h) (fun _ _ h => hR.trans h1 h)
  have cl := gd_cleanup (D := D) (env := env) (R := R)
  steps []

theorem gd_sendRawFb {d} (e t : Int) (s : St) (h : Says D s.client .cmd (.raw s.client.sock) (cstr d)) :
    wp env (sendRawFb d e t) (fun _ => R s) (fun _ => R s) s :=
  gd_after (D := D) (gd_getRawReply (D := D)) e t s (gd_sendRawWith (D := D) (gd_cleanup (D := D)) e s h)

theorem gd_sendFb {d} (hd : D .cmd (cstr d)) (e t : Int) : Steps env R (sendFb d e t) := by
  constructor
  intro s
  unfold sendFb
  rw [wp_bind, wp_gets, wp_bind, wp_gets, wp_ite]
  refine ⟨fun h => gd_sendRawFb e t s (.clear hd ?_), fun h => ?_⟩
  · simp only [Bool.or_eq_true, beq_iff_eq, Option.isNone_iff_eq_none] at h
    rcases h with h | h
    · exact .inr (.inl h)
    · exact .inr (.inr ⟨rfl, h⟩)
  · refine gd_after (D := D) (gd_getTlsReply (D := D)) e t s (gd_sendBioWith (gd_cleanup (D := D)) hd e s ?_)
    intro hk
    simp [hk] at h

theorem gd_sendPtrFb {d} (hd : D .cmd (cstr d)) (e t : Int) : Steps env R (sendPtrFb d e t) := by
  constructor
  intro s
  unfold sendPtrFb
  rw [wp_bind, wp_gets, wp_ite]
  exact ⟨fun h => gd_sendRawFb e t s (.clear hd (.inl h)), fun _ => (gd_sendFb hd e t).run s⟩

theorem gd_identify (hd : D .cmd ehloCmd) (e t) : Steps env R (identify e t) := by
  unfold identify
  have h1 := gd_sendFb (R := R) (env := env) (d := ehloCmd) hd e t
  have h2 := gd_ehloLoop (D := D) (env := env) (R := R)
  steps [addLog_steps, lastResponseText_steps, h2, setAuthOptions_steps]

theorem gd_upgrade (hd : D .cmd startTlsCmd) (hq : D .quit startTlsCmd) (e t : Int) (s : St) (hk : s.client.kind = .opportunistic) :
    wp env (sendRawFb startTlsCmd e t) (fun _ => R s) (fun _ => R s) s :=
  gd_sendRawFb (D := D) e t s (.upgrade hd hq hk)

theorem gd_authenticateIfNeeded (hd : ∀ d, D .cmd d) : Steps env R authenticateIfNeeded := by
  unfold authenticateIfNeeded authenticateClient authPlainM authLoginM authXOAuth2M
  have : ∀ d e t, Steps env R (sendPtrFb d e t) := fun d e t => gd_sendPtrFb (D := D) (hd _) e t
  steps [addLog_steps, this]

/-- The recipients of a message. -/
def isRecipient (m : Message) (a : MessageAddress) : Prop := ∃ l ∈ [m.to, m.cc, m.bcc], a ∈ l.ptr.getD []

/-- What the transmission of a message sends. -/
structure MailTexts (D : SendKind → Bytes → Prop) (m : Message) : Prop where
  content : ∀ d, D .content d
  sender : ∀ f ∈ mailFormats m.from, D .cmd (cstr f)
  rcpt : ∀ a, isRecipient m a → D .cmd (cstr (rcptTo a))
  data : D .cmd dataCmd
  done : D .cmd endOfData

theorem gd_mailFromLoop (l : List Bytes) (hl : ∀ f ∈ l, D .cmd (cstr f)) (c) : Steps env R (mailFromLoop c l) := by
  induction l generalizing c with
  | nil => unfold mailFromLoop; steps []
  | cons f l ih =>
    unfold mailFromLoop
    have h1 := gd_sendPtrFb (R := R) (env := env) (d := f) (hl f (by simp)) (-85) (-86)
    have h2 := ih fun f hf => hl f (by simp [hf])
    steps [addLog_steps, h2]

theorem gd_addMailRecipients (l : List MessageAddress) (hd : ∀ a ∈ l, D .cmd (cstr (rcptTo a))) (c) : Steps env R (addMailRecipients c l) := by
  induction l generalizing c with
  | nil => unfold addMailRecipients; steps []
  | cons a l ih =>
    unfold addMailRecipients
    have h1 := gd_sendPtrFb (R := R) (env := env) (d := rcptTo a) (hd a (by simp)) (-87) (-88)
    have h2 := ih fun a ha => hd a (by simp [ha])
    steps [addLog_steps, h2]

omit [hR : Guarded D R] in
omit D in
theorem arrElems_bind {β γ : Type} [hp : Preord R] (a : Arr β) (f : List β → M γ) (hf : ∀ l, (∀ x ∈ l, x ∈ a.ptr.getD []) → Steps env R (f l)) :
    Steps env R (do f (← arrElems a)) := by
  constructor
  intro s
  rw [wp_bind]
  unfold arrElems
  split
  · rw [wp_ite]
    exact ⟨fun _ => (hf [] (by simp)).run s, fun _ => hp.refl s⟩
  · rename_i l h
    rw [wp_ite]
    refine ⟨fun _ => (hf (l.take a.count) ?_).run s, fun _ => hp.refl s⟩
    intro x hx
    rw [h]
    exact List.mem_of_mem_take hx

theorem gd_recipientsLoop (l : List (Arr MessageAddress)) (hd : ∀ r ∈ l, ∀ a ∈ r.ptr.getD [], D .cmd (cstr (rcptTo a))) :
    Steps env R (recipientsLoop l) := by
  induction l with
  | nil => unfold recipientsLoop; steps []
  | cons r l ih =>
    unfold recipientsLoop
    have h2 := ih fun x hx => hd x (by simp [hx])
    refine Steps.ite h2 (arrElems_bind r _ fun l' hl' => ?_)
    have h1 := gd_addMailRecipients (R := R) (env := env) l' (fun a ha => hd r (by simp) a (hl' a ha)) 250
    steps []

end

theorem gd_sendMailConnected [hR : GuardedMail D R] (m : Message) (hd : MailTexts D m) : Steps env R (sendMailConnected m) := by
  have hF : Filing R := { hR.toGuarded.toHarmless with readFile := hR.readFile }
  have c1 := fun d e => gd_sendPtr (R := R) (env := env) (k := .content) (d := d) (hd.content _) e
  have c2 := gd_sendPtrFb (R := R) (env := env) (d := dataCmd) hd.data (-89) (-90)
  have c3 := gd_sendPtrFb (R := R) (env := env) (d := endOfData) hd.done (-97) (-98)
  have c4 := gd_mailFromLoop (R := R) (env := env) _ hd.sender
  have c5 := gd_recipientsLoop (R := R) (env := env) [m.to, m.cc, m.bcc] (fun r hr a ha => hd.rcpt a ⟨r, hr, ha⟩)
  have c6 := gd_sendQuit (D := D) (R := R) (env := env)
  have c7 := gd_cleanup (D := D) (R := R) (env := env)
  have c8 : ∀ l, Steps env R (sendPieces l) := by
    intro l
    induction l with
    | nil => unfold sendPieces; steps []
    | cons a l ih => unfold sendPieces; steps [c1]
  unfold sendMailConnected sendMailRest setMailRecipients setMailHeaders setMailBody addressHeader addMailHeader sendBodyText
  steps [c1, c4, c5, c8, addLog_steps, arrElems_steps, fullBody_steps, Steps.modify]
  exact hR.connected _

end Verif.Proofs
