import Verif.Model.ClientObjects
/-!
# The Windows branches

The code between `#ifdef _WIN32` and `#else`/`#endif` that differs from the POSIX branch modelled in `Verif.Model.Session`: starting and stopping
Winsock, opening the connection, the blocking modes, closing, importing the root certificates. The dialogue with the server is the same code for
both systems and is not repeated here; a call of `sendMail` is opening, some way the dialogue ends (`WinEnd`, chosen freely), and closing.
-/
namespace Verif.Model
open Verif

/-- What a run on Windows does. `startup`, `resolve` and `wsaCleanup` carry the value returned (0 is success), `socket` the handle. -/
inductive WinEv where
  | startup (r : Int)
  | resolve (name : Option Bytes) (port : Bytes) (r : Int)
  | socket (handle : Nat)
  | connect (sock : Int) (ok : Bool)
  | ioctl (sock : Int) (nb : Bool) (ok : Bool)
  | shutdown (sock : Int)
  | closesocket (sock : Int)
  | wsaCleanup (r : Int)
  | tls (op : TlsOp) (r : Int)
  | storeOpen (ok : Bool)
  | rootCert (parsed : Bool)
  | storeClose
  deriving DecidableEq, Repr

/-- The history of a run on Windows. -/
abbrev WinHist := List WinEv

/-- The operating system and the TLS library, as functions of the history. -/
structure WinEnv where
  startup : WinHist → Int
  resolve : WinHist → Option Bytes → Bytes → Int
  /-- `socket`; `2 ^ 64 - 1` is `INVALID_SOCKET` -/
  socket : WinHist → Nat
  connect : WinHist → Int → Bool
  ioctl : WinHist → Int → Bool → Bool
  wsaCleanup : WinHist → Int
  /-- `WSAGetLastError`, `GetLastError` -/
  lastError : WinHist → Int
  tls : WinHist → TlsOp → Int
  tlsErr : WinHist → Int
  storeOpen : WinHist → Bool
  /-- the certificates of the store in the order of `CertEnumCertificatesInStore`; whether `d2i_X509` can read them -/
  roots : WinHist → List Bool
  /-- `strerror` -/
  errText : Int → Bytes
  /-- `FormatMessage` -/
  wsaText : Int → Option Bytes
  /-- `X509_verify_cert_error_string` -/
  x509Text : Int → Bytes

/-- A client on Windows has one more member, `mWSAStarted` (smtpclientbase.h:218-220), false in new objects. -/
structure WinClient where
  base : Client
  started : Bool := false
  deriving DecidableEq, Repr

/-- State of a run. -/
structure WinSt where
  client : WinClient
  hist : WinHist
  deriving DecidableEq, Repr

/-- Code on Windows. -/
def W (α : Type) := WinEnv → WinSt → Res α × WinSt

namespace W

def pure {α : Type} (a : α) : W α := fun _ s => (.ok a, s)

def bind {α β : Type} (m : W α) (f : α → W β) : W β := fun env s =>
  match m env s with
  | (.ok a, s') => f a env s'
  | (.stop e, s') => (.stop e, s')

instance : Monad W where
  pure := pure
  bind := bind

def stop {α : Type} (e : Stop) : W α := fun _ s => (.stop e, s)
def gets {α : Type} (f : WinClient → α) : W α := fun _ s => (.ok (f s.client), s)
def modify (f : WinClient → WinClient) : W Unit := fun _ s => (.ok (), { s with client := f s.client })
def base (f : Client → Client) : W Unit := modify fun c => { c with base := f c.base }
def env {α : Type} (f : WinEnv → α) : W α := fun e s => (.ok (f e), s)
def emit (e : WinEv) : W Unit := fun _ s => (.ok (), { s with hist := s.hist ++ [e] })
def ask {α : Type} (f : WinEnv → WinHist → α) (ev : α → WinEv) : W α := fun e s =>
  (.ok (f e s.hist), { s with hist := s.hist ++ [ev (f e s.hist)] })
def ask' {α : Type} (f : WinEnv → WinHist → α) : W α := fun e s => (.ok (f e s.hist), s)

end W

/-- `addCommunicationLogItem`, smtpclientbase.cpp:1012-1043. -/
def winLog (item : Bytes) (pfx : Bytes := b!"c") : W Unit := do
  match ← W.gets (·.base.log) with
  | none => W.stop (.ub .nullDeref)
  | some l =>
    match l.add item pfx with
    | .error u => W.stop (.ub u)
    | .ok l' => W.base ({ · with log := some l' })

/-- `setLastSocketErrNo`, smtpclientbase.cpp:306-308. -/
def winErrNo (e : Int) : W Unit := W.base ({ · with lastErrNo := e })

/-- Decimal digits of an `int`, as `operator<<` prints it. -/
def intDec (n : Int) : Bytes := if n < 0 then b!"-" ++ natDec n.natAbs else natDec n.natAbs

/-- `addWSAMessageToCommunicationLog`, smtpclientbase.cpp:468-482: nothing when there is no text. -/
def addWSAMessage (code : Int) : W Unit := do
  match ← W.env (·.wsaText code) with
  | none => pure ()
  | some t => winLog t

/-- `doWSACleanup`, smtpclientbase.cpp:484-493. -/
def doWSACleanup : W Unit := do
  let r ← W.ask (fun e h => e.wsaCleanup h) .wsaCleanup
  if r ≠ 0 then do
    let e ← W.ask' (·.lastError)
    winErrNo e
    winLog (b!"WSACleanup failed with error: " ++ intDec e)
    W.modify ({ · with started := false })
  else W.modify ({ · with started := false })

/-- The handle stored in `mSock`, smtpclientbase.cpp:416: reduced to 32 bits and read as an `int`. -/
def handleInt (handle : Nat) : Int :=
  if handle % 2 ^ 32 < 2 ^ 31 then (handle % 2 ^ 32 : Nat) else ((handle % 2 ^ 32 : Nat) : Int) - 2 ^ 32

/-- What a failed step of the opening does, smtpclientbase.cpp:410-413, 418-422, 429-433. -/
def winOpenFailed (e code : Int) : W Int := do
  addWSAMessage e
  winErrNo e
  doWSACleanup
  pure code

/-- `initializeSession` and `initializeSessionWinSock`, smtpclientbase.cpp:375-386, 389-436. The list of addresses (never freed) is not modelled.
Without a server name (object moved from), `getaddrinfo` is called with null, and writing null to the stream is undefined.
`mSock == INVALID_SOCKET` compares after the conversion of `mSock` to `SOCKET`: true for -1. -/
def initializeSessionWin : W Int := do
  W.base ({ · with log := some .fresh })
  let r ← W.ask (fun e h => e.startup h) .startup
  if r ≠ 0 then do
    winErrNo r
    winLog (b!"WSAStartup failed with error: " ++ intDec r)
    pure (-4)
  else do
    W.modify ({ · with started := true })
    let name ← W.gets (·.base.serverName)
    let port ← W.gets (natDec ·.base.port)
    let r ← W.ask (fun e h => e.resolve h name port) (.resolve name port)
    if r ≠ 0 then winOpenFailed r (-5)
    else do
      let handle ← W.ask (fun e h => e.socket h) .socket
      W.base ({ · with sock := handleInt handle })
      if handleInt handle = -1 then do
        winOpenFailed (← W.ask' (·.lastError)) (-1)
      else do
        match name with
        | none => W.stop (.ub .nullDeref)
        | some name => do
          winLog (b!"Trying to connect to " ++ name ++ b!" on port " ++ port)
          if ← W.ask (fun e h => e.connect h (handleInt handle)) (.connect (handleInt handle)) then pure 0
          else do winOpenFailed (← W.ask' (·.lastError)) (-2)

/-- `setSocketToNonBlockingWinSock` and `setSocketToBlockingWinSock`, smtpclientbase.cpp:438-458. -/
def setBlockingWin (nb : Bool) : W Int := do
  let sock ← W.gets (·.base.sock)
  if ← W.ask (fun e h => e.ioctl h sock nb) (.ioctl sock nb) then pure 0
  else do
    let e ← W.ask' (·.lastError)
    winErrNo e
    winLog (← W.env (·.errText e))
    pure (if nb then (-8) else (-7))

/-- `shutdown` and `closesocket`, smtpclient.cpp:52-56, 61 and securesmtpclientbase.cpp:117-121, 126. -/
def closeSocketWin : W Unit := do
  let sock ← W.gets (·.base.sock)
  if sock ≠ 0 then do
    W.emit (.shutdown sock)
    W.emit (.closesocket sock)
    W.base ({ · with sock := 0 })
  else W.base ({ · with sock := 0 })

/-- `if (isWSAStarted() && WSACleanup() != 0) …; setWSAStopped();`, smtpclient.cpp:63-70 and securesmtpclientbase.cpp:129-136. -/
def stopWinsock : W Unit := do
  if ← W.gets (·.started) then doWSACleanup
  else W.modify ({ · with started := false })

/-- `cleanup`, smtpclient.cpp:47-72 and securesmtpclientbase.cpp:104-138, without the QUIT command (part of the dialogue). -/
def cleanupWin : W Unit := do
  W.base ({ · with isConnected := false, ctx := false, bio := none })
  closeSocketWin
  stopWinsock

/-- How the dialogue of one `sendMail` ends: while the session is set up, leaving everything as it is or after `cleanup`; or later,
keeping the connection or after `cleanup` (see `Verif.Model.Session` for which failure does what). -/
inductive WinEnd where
  | refused
  | refusedClosed
  | kept
  | closed
  deriving DecidableEq, Repr

/-- The part of `sendMail` after the connection was opened. -/
def winDialogue : WinEnd → W Unit
  | .refused => pure ()
  | .refusedClosed => cleanupWin
  | .kept => W.base ({ · with isConnected := true })
  | .closed => do
    W.base ({ · with isConnected := true })
    cleanupWin

/-- The same on an open connection: the session is not set up again. -/
def winDialogueOpen : WinEnd → W Unit
  | .closed => cleanupWin
  | .refusedClosed => cleanupWin
  | _ => pure ()

/-- `sendMail`, smtpclientbase.cpp:344-372, with `establishConnectionWithServer`, smtpclient.cpp:74-78 and the like. -/
def sendMailWin (e : WinEnd) : W Unit := do
  if ← W.gets (·.base.isConnected) then winDialogueOpen e
  else do
    let code ← initializeSessionWin
    if code ≠ 0 then pure () else winDialogue e

/-! ### Objects -/

/-- A new object. -/
def WinClient.new (k : Kind) (name : Bytes) (port : Nat) : WinClient := { base := Client.init k name port }

/-- Copy constructor, smtpclientbase.cpp:80-111: `mWSAStarted` is not mentioned, so it is false. -/
def WinClient.copied (c : WinClient) : Except UB WinClient := c.base.copied.map fun b => { base := b }

/-- Copy assignment, smtpclientbase.cpp:114-153: `mWSAStarted` of the target stays. -/
def WinClient.assigned (d c : WinClient) : Except UB WinClient := c.base.copied.map fun b => { base := b, started := d.started }

/-- Move constructor, smtpclientbase.cpp:156-186: the socket goes over, `mWSAStarted` is false. -/
def WinClient.moved (c : WinClient) : WinClient := { base := c.base.moved }

/-- Move assignment, smtpclientbase.cpp:189-228: the socket goes over, `mWSAStarted` of the target stays. -/
def WinClient.moveAssigned (d c : WinClient) : WinClient := { base := c.base.moved, started := d.started }

/-- The source of a move: `mWSAStarted` stays. -/
def WinClient.movedFrom (c : WinClient) : WinClient := { c with base := c.base.movedFrom }

/-- All objects of a program and the common history. -/
structure WinWorld where
  clients : List (Option WinClient)
  hist : WinHist
  deriving DecidableEq, Repr

/-- The object with a number. -/
def WinWorld.get (w : WinWorld) (i : Nat) : Option WinClient := (w.clients[i]?).join

/-- What a program does with its objects. -/
inductive WinOp where
  | create (k : Kind) (name : Bytes) (port : Nat)
  | copy (src : Nat)
  | move (src : Nat)
  | assign (dst src : Nat)
  | moveAssign (dst src : Nat)
  | send (i : Nat) (e : WinEnd)
  | destroy (i : Nat)
  deriving DecidableEq, Repr

/-- Code on one object. -/
def winOn (i : Nat) (m : W Unit) (gone : Bool) (env : WinEnv) (w : WinWorld) : Res Unit × WinWorld :=
  match w.get i with
  | none => (.ok (), w)
  | some c =>
    let r := m env { client := c, hist := w.hist }
    (r.1, { clients := w.clients.set i (if gone then none else some r.2.client), hist := r.2.hist })

/-- One operation, like `objStep`. Destructors: smtpclient.cpp:22-24, securesmtpclientbase.cpp:37-39. -/
def winStep (op : WinOp) (env : WinEnv) (w : WinWorld) : Res Unit × WinWorld :=
  match op with
  | .create k name port => (.ok (), { w with clients := w.clients ++ [some (.new k name port)] })
  | .copy i =>
    match w.get i with
    | none => (.ok (), w)
    | some c =>
      match c.copied with
      | .error u => (.stop (.ub u), w)
      | .ok c' => (.ok (), { w with clients := w.clients ++ [some c'] })
  | .move i =>
    match w.get i with
    | none => (.ok (), w)
    | some c => (.ok (), { w with clients := w.clients.set i (some c.movedFrom) ++ [some c.moved] })
  | .assign i j =>
    match w.get i, w.get j with
    | some d, some c =>
      if i = j ∨ d.base.kind ≠ c.base.kind then (.ok (), w)
      else match d.assigned c with
        | .error u => (.stop (.ub u), w)
        | .ok c' => (.ok (), { w with clients := w.clients.set i (some c') })
    | _, _ => (.ok (), w)
  | .moveAssign i j =>
    match w.get i, w.get j with
    | some d, some c =>
      if i = j ∨ d.base.kind ≠ c.base.kind then (.ok (), w)
      else (.ok (), { w with clients := (w.clients.set j (some c.movedFrom)).set i (some (d.moveAssigned c)) })
    | _, _ => (.ok (), w)
  | .send i e => winOn i (sendMailWin e) false env w
  | .destroy i => winOn i cleanupWin true env w

/-- A program. -/
def winRun : List WinOp → WinEnv → WinWorld → Res Unit × WinWorld
  | [], _, w => (.ok (), w)
  | op :: ops, env, w =>
    match winStep op env w with
    | (.ok _, w') => winRun ops env w'
    | (.stop e, w') => (.stop e, w')

/-- Before the first object. -/
def WinWorld.empty : WinWorld := { clients := [], hist := [] }

/-! ### TLS -/

/-- The loop over the root certificates, securesmtpclientbase.cpp:188-197. `d2i_X509` advances the pointer inside the certificate context; that is not modelled. -/
def importRoots : List Bool → W Unit
  | [] => pure ()
  | c :: cs => do
    W.emit (.rootCert c)
    importRoots cs

/-- `SSL_CTX_new` and the like. -/
def winTls (op : TlsOp) : W Int := W.ask (fun e h => e.tls h op) (.tls op)

/-- `startTLSNegotiation`, securesmtpclientbase.cpp:156-258 with the Windows branches 177-198 and 253-256. The `BIO*` gets the number of the events so far, as in
`Verif.Model.startTLSNegotiation`. The verification result printed to `stderr` before the handshake is not modelled. -/
def startTLSNegotiationWin : W Int := do
  winLog b!"<Start TLS negotiation>"
  if (← winTls .ctxNew) = 0 then do
    W.base ({ · with ctx := false })
    winErrNo (← W.ask' (·.tlsErr))
    pure (-51)
  else do
    W.base ({ · with ctx := true })
    let id ← W.ask' fun _ h => h.length
    if (← winTls .bioNew) = 0 then do
      W.base ({ · with bio := none })
      pure (-52)
    else do
      let sock ← W.gets (·.base.sock)
      W.base ({ · with bio := some { id := id, fd := sock } })
      match ← W.gets (·.base.serverName) with
      | none => W.stop (.ub .nullDeref)
      | some name =>
        if 1024 ≤ name.length + 1 + (natDec (← W.gets (·.base.port))).length then W.stop (.ub .outOfBounds)
        else do
          if !(← W.ask (fun e h => e.storeOpen h) .storeOpen) then do
            winErrNo (← W.ask' (·.lastError))
            pure (-53)
          else do
            importRoots (← W.ask' (·.roots))
            if (← winTls (.connect id)) ≤ 0 then do
              cleanupWin
              winErrNo (← W.ask' (·.tlsErr))
              pure (-55)
            else do
              winLog b!"<Negotiate a TLS session>" b!"c & s"
              if (← winTls (.handshake id)) ≤ 0 then do
                cleanupWin
                winErrNo (← W.ask' (·.tlsErr))
                pure (-56)
              else do
                winLog b!"<Check result of negotiation>" b!"c & s"
                if (← winTls (.peerCert id)) = 0 then do
                  cleanupWin
                  pure (-57)
                else do
                  let res ← winTls (.verifyResult id)
                  if res = 18 ∧ (← W.gets (·.base.acceptSelfSigned)) = true then do
                    winLog b!"Warning: Self signed certificate" b!"s"
                    winLog b!"TLS session ready!"
                    W.emit .storeClose
                    pure 0
                  else if res ≠ 0 then do
                    winLog (← W.env (·.x509Text res)) b!"s"
                    cleanupWin
                    pure (-58)
                  else do
                    winLog b!"TLS session ready!"
                    W.emit .storeClose
                    pure 0

end Verif.Model
