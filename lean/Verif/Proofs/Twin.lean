import Verif.Proofs.Hoare
import Verif.Model.Session
/-!
# Two runs side by side

Two runs of the session code, from two related states, that get the same answers.
-/
namespace Verif.Proofs
open Verif Verif.Model

variable {α β : Type} {env : Env} {R : St → St → Prop}

/-- From related states both programs end alike, in related states. -/
structure Twin (env : Env) (R : St → St → Prop) (m m' : M α) : Prop where
  run : ∀ s t, R s t → (m env s).1 = (m' env t).1 ∧ R (m env s).2 (m' env t).2

theorem Twin.pure (a : α) : Twin env R (Pure.pure a) (Pure.pure a) := ⟨fun _ _ h => ⟨rfl, h⟩⟩

theorem Twin.stop (e : Stop) : Twin env R (M.stop (α := α) e) (M.stop e) := ⟨fun _ _ h => ⟨rfl, h⟩⟩

theorem Twin.env' (f : Env → α) : Twin env R (M.env f) (M.env f) := ⟨fun _ _ h => ⟨rfl, h⟩⟩

theorem Twin.bind {m m' : M α} {f f' : α → M β} (h : Twin env R m m') (hf : ∀ a, Twin env R (f a) (f' a)) :
    Twin env R (m >>= f) (m' >>= f') := by
  constructor
  intro s t hst
  have h1 := h.run s t hst
  change (M.bind m f env s).1 = (M.bind m' f' env t).1 ∧ R (M.bind m f env s).2 (M.bind m' f' env t).2
  unfold M.bind
  revert h1
  rcases m env s with ⟨r, s1⟩
  rcases m' env t with ⟨r', t1⟩
  rintro ⟨h1, h2⟩
  simp only at h1 h2
  subst h1
  cases r with
  | ok a => exact (hf a).run s1 t1 h2
  | stop e => exact ⟨rfl, h2⟩

theorem Twin.ite {c : Prop} [Decidable c] {m m' n n' : M α} (h : Twin env R m m') (h' : Twin env R n n') :
    Twin env R (if c then m else n) (if c then m' else n') := by
  split
  · exact h
  · exact h'

theorem Twin.gets {f : Client → α} (h : ∀ {s t}, R s t → f s.client = f t.client) : Twin env R (M.gets f) (M.gets f) :=
  ⟨fun _ _ hst => ⟨congrArg Res.ok (h hst), hst⟩⟩

theorem Twin.modify {f : Client → Client} (h : ∀ {s t}, R s t → R { s with client := f s.client } { t with client := f t.client }) :
    Twin env R (M.modify f) (M.modify f) := ⟨fun _ _ hst => ⟨rfl, h hst⟩⟩

theorem Twin.modifyMem {op : SessionOp} {f : Client → Client} (h : ∀ {s t}, R s t →
    R { s with client := f s.client, mem := s.mem ++ [op] } { t with client := f t.client, mem := t.mem ++ [op] }) :
    Twin env R (M.modifyMem op f) (M.modifyMem op f) := ⟨fun _ _ hst => ⟨rfl, h hst⟩⟩

/-- What two related states have in common for the code that works on an open connection, but for the time it waits. `D` relates the texts the two runs may send. -/
class AlikeButTimeout (env : Env) (D : outParam (SendKind → Bytes → Bytes → Prop)) (R : St → St → Prop) : Prop where
  refl : ∀ k d, D k d d
  kind : ∀ {s t}, R s t → s.client.kind = t.client.kind
  sock : ∀ {s t}, R s t → s.client.sock = t.client.sock
  ptrRaw : ∀ {s t}, R s t → s.client.ptrRaw = t.client.ptrRaw
  bio : ∀ {s t}, R s t → s.client.bio = t.client.bio
  batch : ∀ {s t}, R s t → s.client.batch = t.client.batch
  isConnected : ∀ {s t}, R s t → s.client.isConnected = t.client.isConnected
  setConnected : ∀ b {s t}, R s t → R { s with client := { s.client with isConnected := b } } { t with client := { t.client with isConnected := b } }
  setCtx : ∀ b {s t}, R s t → R { s with client := { s.client with ctx := b } } { t with client := { t.client with ctx := b } }
  setBio : ∀ b {s t}, R s t → R { s with client := { s.client with bio := b } } { t with client := { t.client with bio := b } }
  setSock : ∀ b {s t}, R s t → R { s with client := { s.client with sock := b } } { t with client := { t.client with sock := b } }
  setErr : ∀ b {s t}, R s t → R { s with client := { s.client with lastErrNo := b } } { t with client := { t.client with lastErrNo := b } }
  setResp : ∀ b {s t}, R s t → R { s with client := { s.client with lastResponse := some b }, mem := s.mem ++ [.response b] }
    { t with client := { t.client with lastResponse := some b }, mem := t.mem ++ [.response b] }
  addLog : ∀ i p, Twin env R (addLog i p) (addLog i p)
  send : ∀ k c {d d'}, D k d d' → ∀ {β : Type} (f f' : SendRes → M β), (∀ e, Twin env R (f (.fail e)) (f' (.fail e))) →
    (∀ n n', Twin env R (f (.sent n)) (f' (.sent n'))) → Twin env R (sysSend k c d >>= f) (sysSend k c d' >>= f')
  recv : ∀ c, Twin env R (sysRecv c) (sysRecv c)
  fcntlGet : ∀ fd, Twin env R (sysFcntlGet fd) (sysFcntlGet fd)
  fcntlSet : ∀ fd b, Twin env R (sysFcntlSet fd b) (sysFcntlSet fd b)
  sleep : Twin env R sysSleep sysSleep
  close : ∀ fd, Twin env R (sysClose fd) (sysClose fd)
  bioFree : ∀ id, Twin env R (M.emit (.bioFree id)) (M.emit (.bioFree id))
  tlsErr : Twin env R (M.ask' (·.tlsErr)) (M.ask' (·.tlsErr))
  readFile : ∀ n, Twin env R (sysReadFile n) (sysReadFile n)

/-- With the time it waits. -/
class Alike (env : Env) (D : outParam (SendKind → Bytes → Bytes → Prop)) (R : St → St → Prop) : Prop extends AlikeButTimeout env D R where
  timeout : ∀ {s t}, R s t → s.client.timeout = t.client.timeout

syntax "twins" "[" term,* "]" : tactic
macro_rules
  | `(tactic| twins [$ts,*]) => do
    let alts ← ts.getElems.mapM fun t => `(tacticSeq| with_reducible apply $t)
    `(tactic| repeat' (first
        $[| $alts:tacticSeq]*
        | assumption
        | with_reducible apply Twin.pure | with_reducible apply Twin.stop
        | with_reducible apply Twin.env'
        | with_reducible apply Twin.bind | with_reducible apply Twin.ite
        | intro _
        | split))

section
variable {D : SendKind → Bytes → Bytes → Prop} [h : AlikeButTimeout env D R]
include h

theorem tw_kind : Twin env R (M.gets (·.kind)) (M.gets (·.kind)) := .gets h.kind
theorem tw_sock : Twin env R (M.gets (·.sock)) (M.gets (·.sock)) := .gets h.sock
theorem tw_ptrRaw : Twin env R (M.gets (·.ptrRaw)) (M.gets (·.ptrRaw)) := .gets h.ptrRaw
theorem tw_bio : Twin env R (M.gets (·.bio)) (M.gets (·.bio)) := .gets h.bio
theorem tw_batch : Twin env R (M.gets (·.batch)) (M.gets (·.batch)) := .gets h.batch
theorem tw_isConnected : Twin env R (M.gets (·.isConnected)) (M.gets (·.isConnected)) := .gets h.isConnected
theorem tw_connected (b : Bool) : Twin env R (M.modify ({ · with isConnected := b })) (M.modify ({ · with isConnected := b })) :=
  .modify (h.setConnected b)
theorem tw_ctx (b : Bool) : Twin env R (M.modify ({ · with ctx := b })) (M.modify ({ · with ctx := b })) := .modify (h.setCtx b)
theorem tw_setBio (b : Option Bio) : Twin env R (M.modify ({ · with bio := b })) (M.modify ({ · with bio := b })) := .modify (h.setBio b)
theorem tw_setSock (b : Int) : Twin env R (M.modify ({ · with sock := b })) (M.modify ({ · with sock := b })) := .modify (h.setSock b)
theorem tw_setErrNo (e : Int) : Twin env R (setErrNo e) (setErrNo e) := by unfold setErrNo; exact .modify (h.setErr e)
theorem tw_setResp (d : Bytes) : Twin env R (setLastServerResponse d) (setLastServerResponse d) := by
  unfold setLastServerResponse; exact .modifyMem (h.setResp _)

theorem tw_logErrno (e : Int) : Twin env R (logErrno e) (logErrno e) := by
  unfold logErrno
  twins [tw_setErrNo, h.addLog]

theorem tw_sendRawWith {f f' : M Unit} (hf : Twin env R f f') {d d' : Bytes} (k) (hd : D k (cstr d) (cstr d')) (e) :
    Twin env R (sendRawWith f k d e) (sendRawWith f' k d' e) := by
  unfold sendRawWith
  twins [tw_sock, h.send, tw_setErrNo]

theorem tw_sendBioWith {f f' : M Unit} (hf : Twin env R f f') {d d' : Bytes} (k) (hd : D k (cstr d) (cstr d')) (e) :
    Twin env R (sendBioWith f k d e) (sendBioWith f' k d' e) := by
  unfold sendBioWith
  twins [tw_bio, h.send, tw_setErrNo, h.tlsErr]

theorem tw_sendPtrWith {f f' : M Unit} (hf : Twin env R f f') {d d' : Bytes} (k) (hd : D k (cstr d) (cstr d')) (e) :
    Twin env R (sendPtrWith f k d e) (sendPtrWith f' k d' e) := by
  unfold sendPtrWith
  twins [tw_ptrRaw, tw_kind, tw_sendRawWith, tw_sendBioWith]

theorem tw_sendQuitWith {f f' : M Unit} (hf : Twin env R f f') : Twin env R (sendQuitWith f) (sendQuitWith f') := by
  unfold sendQuitWith
  have := h.refl .quit (cstr quitCmd)
  twins [tw_sendPtrWith, h.addLog]

theorem tw_closeSocket : Twin env R closeSocket closeSocket := by
  unfold closeSocket
  twins [tw_sock, h.close, tw_setSock]

theorem tw_freeTls : Twin env R freeTls freeTls := by
  unfold freeTls
  have : ∀ b, Twin env R (emitBioFree b) (emitBioFree b) := by
    intro b; cases b with
    | none => exact .pure _
    | some b => exact h.bioFree _
  twins [tw_bio, tw_ctx, tw_setBio, this]

theorem tw_closeSession : Twin env R closeSession closeSession := by
  unfold closeSession
  twins [tw_connected, tw_kind, tw_closeSocket, tw_freeTls]

theorem tw_cleanupN (n : Nat) : Twin env R (cleanupN n) (cleanupN n) := by
  induction n with
  | zero => unfold cleanupN; exact .stop _
  | succ n ih =>
    unfold cleanupN
    twins [tw_batch, tw_isConnected, tw_sendQuitWith, tw_closeSession]

theorem tw_cleanup : Twin env R cleanup cleanup := by
  unfold cleanup
  twins [tw_cleanupN]

theorem tw_sendPtr {d d' : Bytes} (k) (hd : D k (cstr d) (cstr d')) (e) : Twin env R (sendPtr k d e) (sendPtr k d' e) :=
  tw_sendPtrWith tw_cleanup k hd e

theorem tw_sendQuit : Twin env R sendQuit sendQuit := tw_sendQuitWith tw_cleanup

theorem tw_setNonBlocking : Twin env R setNonBlocking setNonBlocking := by
  unfold setNonBlocking
  have : ∀ r, Twin env R (logIfErr r) (logIfErr r) := by
    intro r; cases r with
    | ok => exact .pure _
    | err e => exact tw_logErrno e
  twins [tw_sock, h.fcntlGet, h.fcntlSet, tw_logErrno, this]

theorem tw_setBlocking : Twin env R setBlocking setBlocking := by
  unfold setBlocking
  twins [tw_sock, h.fcntlGet, h.fcntlSet, tw_logErrno]

theorem tw_bioRead : Twin env R bioRead bioRead := by
  unfold bioRead
  twins [tw_bio, h.recv]

theorem tw_waitLoop {r : M RecvRes} (hr : Twin env R r r) (n) : Twin env R (waitLoop r n) (waitLoop r n) := by
  induction n with
  | zero => unfold waitLoop; twins []
  | succ n ih => unfold waitLoop; twins [h.sleep]

theorem tw_content (d e) : Twin env R (sendPtr .content d e) (sendPtr .content d e) := tw_sendPtr _ (h.refl _ _) e

omit h in
theorem tw_arrElems (a : Arr α) : Twin env R (arrElems a) (arrElems a) := by
  unfold arrElems
  twins []

theorem tw_addMailHeader (f v e) : Twin env R (addMailHeader f v e) (addMailHeader f v e) := by
  unfold addMailHeader
  twins [tw_content, h.addLog]

theorem tw_addressHeader (f a) : Twin env R (addressHeader f a) (addressHeader f a) := by
  unfold addressHeader
  twins [tw_arrElems, tw_addMailHeader]

theorem tw_base64EncodedFile (a) : Twin env R (base64EncodedFile a) (base64EncodedFile a) := by
  unfold base64EncodedFile
  twins [h.readFile]

theorem tw_attachmentsLoop (l) : Twin env R (attachmentsLoop l) (attachmentsLoop l) := by
  induction l with
  | nil => unfold attachmentsLoop; exact .pure _
  | cons a l ih => unfold attachmentsLoop; twins [tw_base64EncodedFile]

theorem tw_fullBody (m) : Twin env R (fullBody m) (fullBody m) := by
  unfold fullBody createAttachmentsText
  twins [tw_arrElems, tw_attachmentsLoop]

theorem tw_sendPieces (l) : Twin env R (sendPieces l) (sendPieces l) := by
  induction l with
  | nil => unfold sendPieces; exact .pure _
  | cons a l ih => unfold sendPieces; twins [tw_content]

end

section
variable {D : SendKind → Bytes → Bytes → Prop} [h : Alike env D R]
include h

theorem tw_timeout : Twin env R (M.gets (·.timeout)) (M.gets (·.timeout)) := .gets h.timeout

theorem tw_rawReplyLoop (n w a g) : Twin env R (rawReplyLoop n w a g) (rawReplyLoop n w a g) := by
  induction n generalizing w a g with
  | zero => unfold rawReplyLoop; exact .stop _
  | succ n ih =>
    unfold rawReplyLoop
    twins [tw_sock, tw_timeout, h.recv, h.sleep, ih]

theorem tw_getRawReply : Twin env R getRawReply getRawReply := by
  unfold getRawReply
  twins [tw_setNonBlocking, tw_setBlocking, tw_rawReplyLoop, tw_timeout, tw_setResp, h.addLog]

theorem tw_getTlsReply : Twin env R getTlsReply getTlsReply := by
  unfold getTlsReply
  twins [tw_timeout, tw_waitLoop, tw_bioRead, tw_setResp, h.addLog]

theorem tw_getServerReply : Twin env R getServerReply getServerReply := by
  unfold getServerReply
  twins [tw_kind, tw_getRawReply, tw_getTlsReply]

theorem tw_sendRawFb {d d' : Bytes} (hd : D .cmd (cstr d) (cstr d')) (e t) : Twin env R (sendRawFb d e t) (sendRawFb d' e t) := by
  unfold sendRawFb sendRaw
  twins [tw_sendRawWith, tw_cleanup, tw_getRawReply]

theorem tw_sendTlsFb {d d' : Bytes} (hd : D .cmd (cstr d) (cstr d')) (e t) : Twin env R (sendTlsFb d e t) (sendTlsFb d' e t) := by
  unfold sendTlsFb
  twins [tw_sendBioWith, tw_cleanup, tw_getTlsReply]

theorem tw_sendFb {d d' : Bytes} (hd : D .cmd (cstr d) (cstr d')) (e t) : Twin env R (sendFb d e t) (sendFb d' e t) := by
  unfold sendFb
  twins [tw_kind, tw_bio, tw_sendRawFb, tw_sendTlsFb]

theorem tw_sendPtrFb {d d' : Bytes} (hd : D .cmd (cstr d) (cstr d')) (e t) : Twin env R (sendPtrFb d e t) (sendPtrFb d' e t) := by
  unfold sendPtrFb
  twins [tw_ptrRaw, tw_sendRawFb, tw_sendFb]

/-- A command that is the same in both runs. -/
theorem tw_cmd (d e t) : Twin env R (sendPtrFb d e t) (sendPtrFb d e t) := tw_sendPtrFb (h.refl _ _) e t

theorem tw_mailFromLoop (c l) : Twin env R (mailFromLoop c l) (mailFromLoop c l) := by
  induction l generalizing c with
  | nil => unfold mailFromLoop; exact .pure _
  | cons f l ih => unfold mailFromLoop; twins [tw_cmd, h.addLog, ih]

theorem tw_addMailRecipients (c l) : Twin env R (addMailRecipients c l) (addMailRecipients c l) := by
  induction l generalizing c with
  | nil => unfold addMailRecipients; exact .pure _
  | cons f l ih => unfold addMailRecipients; twins [tw_cmd, h.addLog, ih]

theorem tw_recipientsLoop (l) : Twin env R (recipientsLoop l) (recipientsLoop l) := by
  induction l with
  | nil => unfold recipientsLoop; exact .pure _
  | cons f l ih => unfold recipientsLoop; twins [tw_arrElems, tw_addMailRecipients, ih]

theorem tw_setMailRecipients (m) : Twin env R (setMailRecipients m) (setMailRecipients m) := by
  unfold setMailRecipients
  twins [tw_mailFromLoop, tw_recipientsLoop]

theorem tw_setMailHeaders (m) : Twin env R (setMailHeaders m) (setMailHeaders m) := by
  unfold setMailHeaders
  twins [tw_cmd, tw_content, h.addLog, tw_addMailHeader, tw_addressHeader]

theorem tw_setMailBody (m) : Twin env R (setMailBody m) (setMailBody m) := by
  unfold setMailBody sendBodyText
  twins [tw_cmd, tw_content, h.addLog, tw_fullBody, tw_sendPieces, tw_batch, tw_sendQuit]

theorem tw_sendMailRest (m) : Twin env R (sendMailRest m) (sendMailRest m) := by
  unfold sendMailRest
  twins [tw_setMailHeaders, tw_setMailBody, tw_batch, tw_cleanup]

theorem tw_sendMailConnected (m) : Twin env R (sendMailConnected m) (sendMailConnected m) := by
  unfold sendMailConnected
  twins [tw_connected, tw_setMailRecipients, tw_sendMailRest]

end

end Verif.Proofs
