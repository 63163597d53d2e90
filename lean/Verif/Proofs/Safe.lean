import Verif.Proofs.Calls
import Verif.Proofs.Close
import Verif.Proofs.Offers
/-!
# Invariants that need not hold where the program stops

`Safe env I F m`: started with `I`, the program returns with `I`; where it stops in the middle, `F` holds. Like `Verif.Proofs.Guard`, for
invariants that are broken and restored while a reply is read.
-/
namespace Verif.Proofs
open Verif Verif.Model

variable {α β : Type} {env : Env} {I F : St → Prop}

structure Safe (env : Env) (I F : St → Prop) (m : M α) : Prop where
  run : ∀ s, I s → wp env m (fun _ => I) (fun _ => F) s

/-- What every invariant here must imply and survive: notes, waiting, files, reading replies. -/
class SafeRead (I F : St → Prop) : Prop where
  weak : ∀ s, I s → F s
  client : ∀ s c m, SameConn s.client c → I s → I { s with client := c, mem := m }
  sleep : ∀ s, I s → I (St.snoc s .sleep)
  readFile : ∀ s n r, I s → I (St.snoc s (.readFile n r))
  rawReply : ∀ env, Safe env I F getRawReply
  recvTls : ∀ s b r, s.client.bio = some b → I s → I (St.snoc s (.recv (.tls b.id b.fd) r))
  connected : ∀ s, I s → I { s with client := { s.client with isConnected := true } }

/-- … and writing, the invariant can be broken between a command and its reply. -/
class SafeTalk (I F : St → Prop) : Prop extends SafeRead I F where
  cleanup : ∀ env, Safe env I F cleanup
  content : ∀ env d e, Safe env I F (sendPtr .content d e)
  quit : ∀ env, Safe env I F sendQuit
  rawFb : ∀ env d e t, Safe env I F (sendRawFb d e t)
  tlsFb : ∀ env d e t, (∀ s, I s → s.client.kind ≠ .smtp → wp env (sendTlsFb d e t) (fun _ => I) (fun _ => F) s)

/-- … or each single write. -/
class SafeInv (I F : St → Prop) : Prop extends SafeRead I F where
  sendRaw : ∀ s k d r, I s → I (St.snoc s (.send k (.raw s.client.sock) d r))
  sendTls : ∀ s b k d r, s.client.bio = some b → I s → I (St.snoc s (.send k (.tls b.id b.fd) d r))
  closed : ∀ s, I s → I { s with client := closedClient s.client, hist := s.hist ++ closingEvs s.client }

namespace Safe
theorem pure (a : α) : Safe env I F (Pure.pure a : M α) := ⟨fun _ h => h⟩
theorem bind {m : M β} {f : β → M α} (hm : Safe env I F m) (hf : ∀ b, Safe env I F (f b)) : Safe env I F (m >>= f) := by
  constructor
  intro s hs
  rw [wp_bind]
  exact wp_mono (hm.run s hs) (fun b s' h => (hf b).run s' h) (fun _ _ h => h)
theorem stop [hI : SafeRead I F] (e : Stop) : Safe env I F (M.stop e : M α) := ⟨fun s h => hI.weak s h⟩
theorem gets (f : Client → α) : Safe env I F (M.gets f) := ⟨fun _ h => h⟩
theorem env' (f : Env → α) : Safe env I F (M.env f) := ⟨fun _ h => h⟩
theorem ask' (f : Env → Hist → α) : Safe env I F (M.ask' f) := ⟨fun _ h => h⟩
theorem histLength : Safe env I F M.histLength := ⟨fun _ h => h⟩
theorem ite {c : Prop} [Decidable c] {a b : M α} (ha : Safe env I F a) (hb : Safe env I F b) : Safe env I F (if c then a else b) := by
  split <;> assumption
theorem ask {f : Env → Hist → α} {ev : α → Ev} (h : ∀ s a, I s → I { s with hist := s.hist ++ [ev a] }) :
    Safe env I F (M.ask f ev) := ⟨fun s hs => h s _ hs⟩
theorem emit {e : Ev} (h : ∀ s, I s → I { s with hist := s.hist ++ [e] }) : Safe env I F (M.emit e) := ⟨fun s hs => h s hs⟩
theorem modify {f : Client → Client} (h : ∀ s, I s → I { s with client := f s.client }) : Safe env I F (M.modify f) := ⟨fun s hs => h s hs⟩
theorem modifyMem {op : SessionOp} {f : Client → Client} (h : ∀ s, I s → I { s with client := f s.client, mem := s.mem ++ [op] }) :
    Safe env I F (M.modifyMem op f) := ⟨fun s hs => h s hs⟩
end Safe

/-- Prove `Safe` goals by following the structure of the program; the terms are lemmas about the parts. -/
syntax "safes" "[" term,* "]" : tactic
macro_rules
  | `(tactic| safes [$ts,*]) => do
    let alts ← ts.getElems.mapM fun t => `(tacticSeq| with_reducible apply $t)
    `(tactic| repeat' (first
        $[| $alts:tacticSeq]*
        | assumption
        | with_reducible apply Safe.pure | with_reducible apply Safe.stop | with_reducible apply Safe.gets
        | with_reducible apply Safe.env' | with_reducible apply Safe.ask' | with_reducible apply Safe.histLength
        | with_reducible apply Safe.bind | with_reducible apply Safe.ite
        | intro _
        | split))

section
variable [hI : SafeRead I F]

theorem sf_addLog (i p) : Safe env I F (addLog i p) := by
  constructor
  intro s hs
  refine wp_mono (addLog_keeps i p s) ?_ (fun _ _ h => h ▸ hI.weak s hs)
  rintro _ s' ⟨l, e⟩
  rw [e]
  exact hI.client s _ _ rfl hs

theorem sf_setErrNo (e) : Safe env I F (setErrNo e) := Safe.modify fun s hs => hI.client s _ _ rfl hs

theorem sf_setLastServerResponse (r) : Safe env I F (setLastServerResponse r) := Safe.modifyMem fun s hs => hI.client s _ _ rfl hs

theorem sf_setAuthOptions (r) : Safe env I F (setAuthOptions r) := Safe.modifyMem fun s hs => hI.client s _ _ rfl hs

theorem sf_lastResponseText : Safe env I F lastResponseText := by unfold lastResponseText; safes []

theorem sf_arrElems (a : Arr α) : Safe env I F (arrElems a) := by unfold arrElems; safes []

theorem sf_greetingResult (r) : Safe env I F (greetingResult r) := by unfold greetingResult; safes [sf_addLog]

theorem sf_sleep : Safe env I F sysSleep := Safe.emit fun s hs => hI.sleep s hs

theorem sf_bioRead : Safe env I F bioRead := by
  constructor
  intro s hs
  unfold bioRead
  rw [wp_bind, wp_gets]
  cases hb : s.client.bio with
  | none => exact hs
  | some b =>
    dsimp only
    unfold sysRecv
    rw [wp_bind, wp_ask, wp_ite]
    exact ⟨fun _ => hI.weak _ (hI.recvTls s b _ hb hs), fun _ => hI.recvTls s b _ hb hs⟩

theorem sf_waitLoop (n) : Safe env I F (waitLoop bioRead n) := by
  induction n with
  | zero => unfold waitLoop; safes [sf_bioRead]
  | succ n ih => unfold waitLoop; safes [sf_bioRead, sf_sleep]

theorem sf_getTlsReply : Safe env I F getTlsReply := by
  unfold getTlsReply
  safes [sf_waitLoop, sf_addLog, sf_setLastServerResponse]

theorem sf_getRawReply : Safe env I F getRawReply := hI.rawReply env

theorem sf_getServerReply : Safe env I F getServerReply := by
  unfold getServerReply
  safes [sf_getRawReply, sf_getTlsReply]

theorem sf_ehloLoop (t n o) : Safe env I F (ehloLoop t n o) := by
  induction n generalizing o with
  | zero => unfold ehloLoop; safes []
  | succ n ih => unfold ehloLoop; safes [sf_getServerReply, sf_lastResponseText, ih]

theorem sf_readFile (n) : Safe env I F (sysReadFile n) := Safe.ask fun s r hs => hI.readFile s n r hs

theorem sf_attachmentsLoop (l) : Safe env I F (attachmentsLoop l) := by
  induction l with
  | nil => unfold attachmentsLoop; safes []
  | cons f l ih => unfold attachmentsLoop base64EncodedFile; safes [sf_readFile]

theorem sf_fullBody (m) : Safe env I F (fullBody m) := by
  unfold fullBody createAttachmentsText
  safes [sf_attachmentsLoop, sf_arrElems]

end

section
variable [hI : SafeInv I F]

theorem sf_sendRawWith {f : M Unit} (hf : Safe env I F f) (k d e) : Safe env I F (sendRawWith f k d e) := by
  constructor
  intro s hs
  unfold sendRawWith sysSend
  rw [wp_bind, wp_gets, wp_bind, wp_bind, wp_ask, wp_ite]
  have h1 := fun r => hI.sendRaw s k (cstr d) r hs
  refine ⟨fun _ => hI.weak _ (h1 _), fun _ => ?_⟩
  refine Safe.run (?_ : Safe env I F _) _ (h1 _)
  safes [sf_setErrNo]

theorem sf_sendBioWith {f : M Unit} (hf : Safe env I F f) (k d e) : Safe env I F (sendBioWith f k d e) := by
  constructor
  intro s hs
  unfold sendBioWith sysSend
  rw [wp_bind, wp_gets]
  cases hb : s.client.bio with
  | none =>
    refine Safe.run (?_ : Safe env I F _) s hs
    safes [sf_setErrNo]
  | some b =>
    dsimp only
    rw [wp_bind, wp_bind, wp_ask, wp_ite]
    have h1 := fun r => hI.sendTls s b k (cstr d) r hb hs
    refine ⟨fun _ => hI.weak _ (h1 _), fun _ => ?_⟩
    refine Safe.run (?_ : Safe env I F _) _ (h1 _)
    safes [sf_setErrNo]

theorem sf_sendPtrWith {f : M Unit} (hf : Safe env I F f) (k d e) : Safe env I F (sendPtrWith f k d e) := by
  unfold sendPtrWith
  safes [sf_sendRawWith hf, sf_sendBioWith hf]

theorem sf_sendQuitWith {f : M Unit} (hf : Safe env I F f) : Safe env I F (sendQuitWith f) := by
  unfold sendQuitWith
  safes [sf_sendPtrWith hf, sf_addLog]

theorem sf_closeSession : Safe env I F closeSession := by
  constructor
  intro s hs
  unfold wp
  rw [closeSession_run]
  exact hI.closed s hs

theorem sf_cleanupN (n) : Safe env I F (cleanupN n) := by
  induction n with
  | zero => unfold cleanupN; safes []
  | succ n ih => unfold cleanupN; safes [sf_sendQuitWith ih, sf_closeSession]

theorem inv_cleanup : Safe env I F cleanup := by
  unfold cleanup
  safes [sf_cleanupN]

instance : SafeTalk I F where
  cleanup := fun _ => inv_cleanup
  content := fun _ d e => sf_sendPtrWith inv_cleanup _ d e
  quit := fun _ => sf_sendQuitWith inv_cleanup
  rawFb := fun env d e t => by
    unfold sendRawFb sendRaw
    safes [sf_sendRawWith inv_cleanup, sf_getRawReply, inv_cleanup]
  tlsFb := fun env d e t s hs _ => by
    refine Safe.run (?_ : Safe env I F _) s hs
    unfold sendTlsFb
    safes [sf_sendBioWith inv_cleanup, sf_getTlsReply, inv_cleanup]

end

section
variable [hI : SafeTalk I F]

theorem sf_cleanup : Safe env I F cleanup := hI.cleanup env

theorem sf_sendContent (d e) : Safe env I F (sendPtr .content d e) := hI.content env d e

theorem sf_sendQuit : Safe env I F sendQuit := hI.quit env

theorem sf_sendRawFb (d e t) : Safe env I F (sendRawFb d e t) := hI.rawFb env d e t

theorem sf_sendFb (d e t) : Safe env I F (sendFb d e t) := by
  constructor
  intro s hs
  unfold sendFb
  rw [wp_bind, wp_gets, wp_bind, wp_gets, wp_ite]
  refine ⟨fun _ => (sf_sendRawFb d e t).run s hs, fun h => hI.tlsFb env d e t s hs ?_⟩
  intro hk
  simp [hk] at h

theorem sf_sendPtrFb (d e t) : Safe env I F (sendPtrFb d e t) := by
  unfold sendPtrFb
  safes [sf_sendRawFb, sf_sendFb]

theorem sf_identify (e t) : Safe env I F (identify e t) := by
  unfold identify
  safes [sf_addLog, sf_sendFb, sf_lastResponseText, sf_ehloLoop, sf_setAuthOptions]

theorem sf_authenticateIfNeeded : Safe env I F authenticateIfNeeded := by
  unfold authenticateIfNeeded authenticateClient authPlainM authLoginM authXOAuth2M
  safes [sf_addLog, sf_sendPtrFb]

theorem sf_mailFromLoop (l c) : Safe env I F (mailFromLoop c l) := by
  induction l generalizing c with
  | nil => unfold mailFromLoop; safes []
  | cons f l ih => unfold mailFromLoop; safes [sf_addLog, sf_sendPtrFb, ih]

theorem sf_addMailRecipients (l c) : Safe env I F (addMailRecipients c l) := by
  induction l generalizing c with
  | nil => unfold addMailRecipients; safes []
  | cons f l ih => unfold addMailRecipients; safes [sf_addLog, sf_sendPtrFb, ih]

theorem sf_recipientsLoop (l) : Safe env I F (recipientsLoop l) := by
  induction l with
  | nil => unfold recipientsLoop; safes []
  | cons f l ih => unfold recipientsLoop; safes [sf_addMailRecipients, sf_arrElems]

theorem sf_sendPieces (l) : Safe env I F (sendPieces l) := by
  induction l with
  | nil => unfold sendPieces; safes []
  | cons f l ih => unfold sendPieces; safes [sf_sendContent]

theorem sf_sendMailConnected (m) : Safe env I F (sendMailConnected m) := by
  unfold sendMailConnected sendMailRest setMailRecipients setMailHeaders setMailBody addressHeader addMailHeader sendBodyText
  safes [sf_addLog, sf_arrElems, sf_fullBody, sf_sendPieces, sf_sendContent, sf_sendPtrFb, sf_mailFromLoop, sf_recipientsLoop, sf_sendQuit, sf_cleanup,
    Safe.modify fun s hs => hI.connected s hs]

end

/-- The invariant together with the class of the client. -/
def OfKind (k : Kind) (I : St → Prop) (s : St) : Prop := I s ∧ s.client.kind = k

theorem Safe.ofKind {k : Kind} {m : M α} (h : Safe env I F m) (hk : Steps env (fun s s' : St => s'.client.kind = s.client.kind) m) : Safe env (OfKind k I) F m :=
  ⟨fun s hs => wp_mono (wp_and (h.run s hs.1) (hk.run s)) (fun _ _ h' => ⟨h'.1, h'.2.trans hs.2⟩) (fun _ _ h' => h'.1)⟩

instance safe_ofKind (k : Kind) [hI : SafeTalk I F] : SafeTalk (OfKind k I) F :=
  have hk := kind_anything
  { weak := fun s h => hI.weak s h.1
    client := fun s c m hc h => ⟨hI.client s c m hc h.1, by unfold SameConn at hc; rw [hc]; exact h.2⟩
    sleep := fun s h => ⟨hI.sleep s h.1, h.2⟩
    readFile := fun s n r h => ⟨hI.readFile s n r h.1, h.2⟩
    rawReply := fun env => (hI.rawReply env).ofKind getRawReply_steps
    recvTls := fun s b r hb h => ⟨hI.recvTls s b r hb h.1, h.2⟩
    connected := fun s h => ⟨hI.connected s h.1, h.2⟩
    cleanup := fun env => (hI.cleanup env).ofKind cleanup_steps
    content := fun env d e => (hI.content env d e).ofKind (sendPtr_steps (fun _ _ _ => rfl) _)
    quit := fun env => (hI.quit env).ofKind sendQuit_steps
    rawFb := fun env d e t => (hI.rawFb env d e t).ofKind (sendRawFb_steps (fun _ _ _ => rfl) _ _)
    tlsFb := fun env d e t s hs hn => wp_mono (wp_and (hI.tlsFb env d e t s hs.1 hn)
        ((sendTlsFb_steps (R := fun s s' : St => s'.client.kind = s.client.kind) (fun _ _ _ => rfl) _ _).run s))
      (fun _ _ h' => ⟨h'.1, h'.2.trans hs.2⟩) (fun _ _ h' => h'.1) }

end Verif.Proofs
