import Verif.Model.WinSock
/-!
# The dialogue on any platform, and on Windows

The code of the dialogue is the same on both platforms; they differ in the functions between `#ifdef _WIN32` and `#endif`. Here the model of the dialogue (`Verif.Model.Session`) is
repeated with these functions as parameters; `Verif.Proofs.Platform` proves that with the functions of POSIX it is that model. The second part has the functions of Windows.
-/
namespace Verif.Model
open Verif

/-- The functions that depend on the platform. `sendRaw` and `tls` get the function `cleanup`, `close` is the part of `cleanup` after the QUIT. -/
structure Platform where
  init : M Int
  nonBlocking : M Int
  blocking : M Int
  sendRaw : M Unit → SendKind → Bytes → Int → M Int
  close : M Unit
  tls : M Unit → M Int

/-- POSIX. -/
def posix : Platform where
  init := initializeSession
  nonBlocking := setNonBlocking
  blocking := setBlocking
  sendRaw := sendRawWith
  close := closeSession
  tls := fun _ => startTLSNegotiation

namespace Gen

/-- The call through `sendCommandPtr`: `sendRawCommand` when the base commands are kept, otherwise the virtual `sendCommand`
(smtpclient.cpp:100-102, securesmtpclientbase.cpp:288-295). -/
def sendPtrWith (P : Platform) (onFail : M Unit) (k : SendKind) (cmd : Bytes) (err : Int) : M Int := do
  if (← M.gets (·.ptrRaw)) || (← M.gets (·.kind)) == .smtp then P.sendRaw onFail k cmd err else sendBioWith onFail k cmd err

/-- `sendQuitCommand`, smtpclientbase.cpp:734-742. -/
def sendQuitWith (P : Platform) (onFail : M Unit) : M Int := do
  addLog quitCmd
  sendPtrWith P onFail .quit quitCmd (-99)

/-- `cleanup`, smtpclient.cpp:47-72 and securesmtpclientbase.cpp:104-138. It can call itself through `sendQuitCommand` when
sending fails; the number is the depth of nested calls the stack allows. -/
def cleanupN (P : Platform) : Nat → M Unit
  | 0 => M.stop .stackOverflow
  | n + 1 => do
    if (← M.gets (·.batch)) && (← M.gets (·.isConnected)) then do
      let _ ← sendQuitWith P (cleanupN P n)
      P.close
    else P.close

/-- `cleanup` with the stack of the environment. -/
def cleanup (P : Platform) : M Unit := do cleanupN P (← M.env (·.depth))

/-- `sendRawCommand(command, errorCode)`, smtpclientbase.cpp:668-684. -/
def sendRaw (P : Platform) (k : SendKind) (cmd : Bytes) (err : Int) : M Int := P.sendRaw (cleanup P) k cmd err

/-- `(*this.*sendCommandPtr)(command, errorCode)`. -/
def sendPtr (P : Platform) (k : SendKind) (cmd : Bytes) (err : Int) : M Int := sendPtrWith P (cleanup P) k cmd err

/-- `sendQuitCommand`, smtpclientbase.cpp:734-742. -/
def sendQuit (P : Platform) : M Int := sendQuitWith P (cleanup P)

/-- `getRawCommandReply`, smtpclientbase.cpp:686-714. -/
def getRawReply (P : Platform) : M Int := do
  let _ ← P.nonBlocking
  let (wait, acc, got) ← rawReplyLoop (← M.env (·.fuel)) 0 [] false
  let _ ← P.blocking
  if wait < (← M.gets (·.timeout)) ∨ got = true then do
    setLastServerResponse acc
    addLog acc b!"s"
    pure (extractReturnCode (some acc))
  else pure (-1)

/-- The virtual `getServerReply`: smtpclient.cpp:108-110, securesmtpclientbase.cpp:317-332. -/
def getServerReply (P : Platform) : M Int := do
  if (← M.gets (·.kind)) == .smtp then getRawReply P else getTlsReply

/-- `sendRawCommand(command, errorCode, timeoutCode)`, smtpclientbase.cpp:720-732. -/
def sendRawFb (P : Platform) (cmd : Bytes) (err timeout : Int) : M Int := do
  if (← sendRaw P .cmd cmd err) ≠ 0 then pure err
  else do
    let code ← getRawReply P
    if code ≠ -1 then pure code
    else do
      cleanup P
      pure timeout

/-- `SecureSMTPClientBase::sendCommandWithFeedback` once there is a `BIO`, securesmtpclientbase.cpp:302-314. -/
def sendTlsFb (P : Platform) (cmd : Bytes) (err timeout : Int) : M Int := do
  if (← sendBioWith (cleanup P) .cmd cmd err) ≠ 0 then pure err
  else do
    let code ← getTlsReply
    if code ≠ -1 then pure code
    else do
      cleanup P
      pure timeout

/-- The virtual `sendCommandWithFeedback`: smtpclient.cpp:104-106, securesmtpclientbase.cpp:297-315. -/
def sendFb (P : Platform) (cmd : Bytes) (err timeout : Int) : M Int := do
  if (← M.gets (·.kind)) == .smtp || (← M.gets (·.bio)).isNone then sendRawFb P cmd err timeout else sendTlsFb P cmd err timeout

/-- The call through `sendCommandWithFeedbackPtr`. -/
def sendPtrFb (P : Platform) (cmd : Bytes) (err timeout : Int) : M Int := do
  if ← M.gets (·.ptrRaw) then sendRawFb P cmd err timeout else sendFb P cmd err timeout

/-- The loop `while (!containsAllOptions(returnedOptions))`, smtpclientbase.cpp:633-641 and securesmtpclientbase.cpp:274-282.
The result is an error code or the complete text. -/
def ehloLoop (P : Platform) (timeoutCode : Int) : Nat → Bytes → M (Int ⊕ Bytes)
  | 0, _ => M.stop .fuel
  | n + 1, options =>
    if containsAllOptions options then pure (.inr options)
    else do
      let code ← getServerReply P
      if code = -1 then pure (.inl timeoutCode)
      else if code ≠ 250 then pure (.inl code)
      else do
        let r ← lastResponseText
        ehloLoop P timeoutCode n (options ++ b!"\n" ++ r)

/-- `sendServerIdentification` and `getServerSecureIdentification` from the EHLO on, smtpclientbase.cpp:620-645 and
securesmtpclientbase.cpp:263-285; they differ in the error codes only. -/
def identify (P : Platform) (err timeoutCode : Int) : M Int := do
  addLog ehloCmd
  let code ← sendFb P ehloCmd err timeoutCode
  if code ≠ 250 then pure code
  else do
    let first ← lastResponseText
    match ← ehloLoop P timeoutCode (← M.env (·.fuel)) first with
    | .inl e => pure e
    | .inr options => do
      setAuthOptions options
      pure 250

/-- `sendServerIdentification`, smtpclientbase.cpp:620-645. -/
def sendServerIdentification (P : Platform) : M Int := identify P (-20) (-21)

/-- `getServerSecureIdentification`, securesmtpclientbase.cpp:260-286. -/
def getServerSecureIdentification (P : Platform) : M Int := do
  addLog b!"Contacting the server again but via the secure channel..."
  identify P (-59) (-60)

/-- `authenticateWithMethodPlain`, smtpclientbase.cpp:783-795. -/
def authPlainM (P : Platform) (c : Credential) : M Int := do
  addLog b!"AUTH PLAIN ***************\r\n"
  sendPtrFb P (authPlain c) (-81) (-82)

/-- `authenticateWithMethodLogin`, smtpclientbase.cpp:797-821. -/
def authLoginM (P : Platform) (c : Credential) : M Int := do
  addLog b!"AUTH LOGIN ***************\r\n"
  if (← sendPtrFb P b!"AUTH LOGIN\r\n" (-81) (-82)) ≠ 334 then pure (-81)
  else do
    if (← sendPtrFb P (authLoginLine c.username) (-81) (-82)) ≠ 334 then pure (-81)
    else sendPtrFb P (authLoginLine c.password) (-81) (-82)

/-- `authenticatedWithMethodXOauth2`, smtpclientbase.cpp:823-836. -/
def authXOAuth2M (P : Platform) (c : Credential) : M Int := do
  addLog b!"XOauth 2 ***************\r\n"
  sendPtrFb P (authXOAuth2 c) (-81) (-82)

/-- `authenticateClient`, smtpclientbase.cpp:760-781. `mAuthOptions` is dereferenced without a test. -/
def authenticateClient (P : Platform) : M Int := do
  match ← M.gets (·.credential) with
  | none => pure (-83)
  | some c =>
    match ← M.gets (·.authOptions) with
    | none => M.stop (.ub .nullDeref)
    | some o =>
      if o.plain && (c.method == .implicit || c.method == .plain) then authPlainM P c
      else if o.login && (c.method == .implicit || c.method == .login) then authLoginM P c
      else if o.xoauth2 && (c.method == .implicit || c.method == .xoauth2) then authXOAuth2M P c
      else pure (-84)

/-- The last step of the three `establishConnectionWithServer`, smtpclient.cpp:90-97, opportunisticsecuresmtpclient.cpp:81-86,
forcedsecuresmtpclient.cpp:72-78. -/
def authenticateIfNeeded (P : Platform) : M Int := do
  if (← M.gets (·.credential)).isSome then do
    let code ← authenticateClient P
    if code ≠ 235 then pure code else pure 0
  else pure 0

/-- `upgradeToSecureConnection`, opportunisticsecuresmtpclient.cpp:94-100. -/
def upgradeToSecureConnection (P : Platform) : M Int := do
  addLog startTlsCmd
  sendRawFb P startTlsCmd (-30) (-31)

/-- The rest of `OpportunisticSecureSMTPClient::establishConnectionWithServer`, opportunisticsecuresmtpclient.cpp:67-92. -/
def establishOpportunistic (P : Platform) : M Int := do
  match isStartTLSSupported (← M.gets (·.lastResponse)) with
  | .error u => M.stop (.ub u)
  | .ok true => do
    addLog b!"Info: STARTTLS is available by the server, the communication will be encrypted."
    let code ← upgradeToSecureConnection P
    if code ≠ 220 then pure code
    else do
      let code ← P.tls (cleanup P)
      if code ≠ 0 then pure code
      else do
        let code ← getServerSecureIdentification P
        if code ≠ 250 then pure code
        else authenticateIfNeeded P
  | .ok false => do
    addLog b!"Info: STARTTLS is not an available option by the server, the communication will then remain unencrypted."
    setKeepUsingBase true
    pure 0

/-- The rest of `ForcedSecureSMTPClient::establishConnectionWithServer`, forcedsecuresmtpclient.cpp:57-79. -/
def establishForced (P : Platform) : M Int := do
  let code ← P.tls (cleanup P)
  if code ≠ 0 then pure code
  else do
    let code ← checkServerGreetings
    if code ≠ 220 then pure code
    else do
      let code ← getServerSecureIdentification P
      if code ≠ 250 then pure code
      else authenticateIfNeeded P

/-- The rest of the other two after `initializeSession`, smtpclient.cpp:80-97, opportunisticsecuresmtpclient.cpp:57-92. -/
def establishGreeted (P : Platform) (rest : M Int) : M Int := do
  let code ← checkServerGreetings
  if code ≠ 220 then pure code
  else do
    let code ← sendServerIdentification P
    if code ≠ 250 then pure code
    else rest

/-- `establishConnectionWithServer`, smtpclient.cpp:74-98, opportunisticsecuresmtpclient.cpp:51-92,
forcedsecuresmtpclient.cpp:51-79. -/
def establish (P : Platform) : M Int := do
  let code ← P.init
  if code ≠ 0 then pure code
  else
    match ← M.gets (·.kind) with
    | .smtp => establishGreeted P (authenticateIfNeeded P)
    | .opportunistic => establishGreeted P (establishOpportunistic P)
    | .forced => establishForced P

/-- The loop over the MAIL FROM forms, smtpclientbase.cpp:849-865: the result is 250 or the code to return. -/
def mailFromLoop (P : Platform) : Int → List Bytes → M Int
  | last, [] => pure last
  | _, f :: fs => do
    addLog f
    let code ← sendPtrFb P f (-85) (-86)
    if code = 250 then pure 250
    else if code ≠ 501 then pure code
    else mailFromLoop P code fs

/-- `addMailRecipients`, smtpclientbase.cpp:883-895: goes on after a failure; the last failing code is the result. -/
def addMailRecipients (P : Platform) : Int → List MessageAddress → M Int
  | ret, [] => pure ret
  | ret, a :: as => do
    addLog (rcptTo a)
    let code ← sendPtrFb P (rcptTo a) (-87) (-88)
    addMailRecipients P (if code ≠ 250 then code else ret) as

/-- The loop over the three recipient lists, smtpclientbase.cpp:868-880; null lists are skipped. -/
def recipientsLoop (P : Platform) : List (Arr MessageAddress) → M Int
  | [] => pure 0
  | a :: rest =>
    if a.ptr.isNone then recipientsLoop P rest
    else do
      let code ← addMailRecipients P 250 (← arrElems a)
      if code ≠ 250 then pure code else recipientsLoop P rest

/-- `setMailRecipients`, smtpclientbase.cpp:838-881. -/
def setMailRecipients (P : Platform) (m : Message) : M Int := do
  let code ← mailFromLoop P 0 (mailFormats m.from)
  if code ≠ 250 then pure code else recipientsLoop P [m.to, m.cc, m.bcc]

/-- `addMailHeader`, smtpclientbase.cpp:952-957. -/
def addMailHeader (P : Platform) (field value : Bytes) (err : Int) : M Int := do
  addLog (headerLine field value)
  sendPtr P .content (headerLine field value) err

/-- The To and Cc headers, smtpclientbase.cpp:921-931: the result of sending is ignored. -/
def addressHeader (P : Platform) (field : Bytes) (a : Arr MessageAddress) : M Unit := do
  if 0 < a.count then do
    let l ← arrElems a
    let _ ← addMailHeader P field (generateHeaderAddressValues l) (-92)
    pure ()
  else pure ()

/-- `setMailHeaders`, smtpclientbase.cpp:897-950. -/
def setMailHeaders (P : Platform) (m : Message) : M Int := do
  addLog dataCmd
  let code ← sendPtrFb P dataCmd (-89) (-90)
  if code ≠ 354 then pure code
  else do
    let code ← addMailHeader P b!"From" (fromHeaderValue m.from) (-91)
    if code ≠ 0 then pure code
    else do
      addressHeader P b!"To" m.to
      addressHeader P b!"Cc" m.cc
      addLog (subjectLine m.subject)
      let code ← sendPtr P .content (subjectLine m.subject) (-93)
      if code ≠ 0 then pure code
      else do
        addLog contentTypeLine
        let code ← sendPtr P .content contentTypeLine (-94)
        if code ≠ 0 then pure code else pure 0

/-- The sending loop, smtpclientbase.cpp:977-987. -/
def sendPieces (P : Platform) : List Bytes → M Int
  | [] => pure 0
  | p :: ps => do
    let code ← sendPtr P .content p (-95)
    if code ≠ 0 then pure code else sendPieces P ps

/-- smtpclientbase.cpp:974-993. -/
def sendBodyText (P : Platform) (body : Bytes) : M Int :=
  if body.length > 512 then sendPieces P (bodyPieces body body.length 0)
  else do
    let code ← sendPtr P .content body (-96)
    if code ≠ 0 then pure code else pure 0

/-- `setMailBody`, smtpclientbase.cpp:959-1010. -/
def setMailBody (P : Platform) (m : Message) : M Int := do
  addLog (bodyPart m.mime m.body)
  let body ← fullBody m
  let code ← sendBodyText P body
  if code ≠ 0 then pure code
  else do
    addLog endOfData
    let code ← sendPtrFb P endOfData (-97) (-98)
    if code ≠ 250 then pure code
    else if ← M.gets (·.batch) then pure 0
    else do
      let code ← sendQuit P
      if code ≠ 0 then pure code else pure 0

/-- The part of `sendMail` after the recipients, smtpclientbase.cpp:358-371. -/
def sendMailRest (P : Platform) (m : Message) : M Int := do
  let code ← setMailHeaders P m
  if code ≠ 0 then pure code
  else do
    let code ← setMailBody P m
    if code ≠ 0 then pure code
    else if ← M.gets (·.batch) then pure 0
    else do
      cleanup P
      pure 0

/-- The part of `sendMail` on an open session, smtpclientbase.cpp:351-371. -/
def sendMailConnected (P : Platform) (m : Message) : M Int := do
  M.modify ({ · with isConnected := true })
  let code ← setMailRecipients P m
  if code ≠ 0 then pure code else sendMailRest P m

/-- `sendMail`, smtpclientbase.cpp:344-372. -/
def sendMail (P : Platform) (m : Message) : M Int := do
  if ← M.gets (·.isConnected) then sendMailConnected P m
  else do
    let code ← establish P
    if code ≠ 0 then pure code else sendMailConnected P m

/-- One API call; setters: smtpclientbase.cpp:254-292, securesmtpclientbase.cpp:100-102. -/
def doCall (P : Platform) (c : Call) : M CallRes := do
  M.emit (.call c)
  match c with
  | .setServerName p => setServerName p
  | .setServerPort n => do M.modify ({ · with port := n }); pure .done
  | .setBatchMode b => do M.modify ({ · with batch := b }); pure .done
  | .setCommandTimeout n => do M.modify ({ · with timeout := n }); pure .done
  | .setCredentials c => do M.modify ({ · with credential := some c }); pure .done
  | .setKeepUsingBaseSendCommands b => do setKeepUsingBase b; pure .done
  | .setAcceptSelfSignedCert b => do M.modify ({ · with acceptSelfSigned := b }); pure .done
  | .sendMail m => do pure (.returned (← sendMail P m))

/-- A sequence of API calls on one object. -/
def runCalls (P : Platform) : List Call → M (List CallRes)
  | [] => pure []
  | c :: cs => do
    let r ← doCall P c
    let rs ← runCalls P cs
    pure (r :: rs)

/-- The destructor as far as the session is concerned: smtpclient.cpp:22-24, securesmtpclientbase.cpp:37-39. -/
def destroy (P : Platform) : M Unit := do
  M.emit .destroy
  cleanup P

/-- The whole life of an object. -/
def life (P : Platform) (cs : List Call) : M (List CallRes) := do
  let rs ← runCalls P cs
  destroy P
  pure rs

end Gen

/-! ### Windows -/

/-- The step at which the opening of a connection fails, with its code: smtpclientbase.cpp:396-402 (`WSAStartup`), 405-408 (`getaddrinfo`), 415-422 (`socket`), 426-433 (`connect`). -/
inductive WinStep where
  | startup
  | address
  | socket
  | connect
  deriving DecidableEq, Repr

/-- socketerrors.h. -/
def WinStep.code : WinStep → Int
  | .startup => -4
  | .address => -5
  | .socket => -1
  | .connect => -2

/-- What Windows adds to the world. `step`, `texts` and `sock` say how a failed opening fails, what it has written into the log, and which number it leaves in `mSock`.
`stopFails` is the error number when `WSACleanup` is called and fails. `lastError` is `GetLastError`. -/
structure WinCalls where
  step : Hist → WinStep
  texts : Hist → List Bytes
  sock : Hist → Int
  stopFails : Hist → Option Int
  lastError : Hist → Int

/-- Several log items. -/
def addLogs : List Bytes → M Unit
  | [] => pure ()
  | t :: ts => do
    addLog t
    addLogs ts

/-- `initializeSession` on Windows, smtpclientbase.cpp:375-386, 389-436. Simplified: the four steps are one event, `.socket`, with the handle of the connected socket or the number of the
error; the steps themselves, their log and what a failure leaves behind are modelled in `initializeSessionWin`. Handles are below 2^31. -/
def winInit (w : WinCalls) : M Int := do
  M.modifyMem .freshLog ({ · with log := some .fresh })
  let step ← M.ask' fun _ h => w.step h
  let texts ← M.ask' fun _ h => w.texts h
  let left ← M.ask' fun _ h => w.sock h
  match ← sysSocket with
  | .err e => do
    M.modify ({ · with sock := left })
    setErrNo e
    addLogs texts
    pure step.code
  | .val fd => do
    M.modify ({ · with sock := (fd : Int) })
    match ← M.gets (·.serverName) with
    | none => M.stop (.ub .nullDeref)
    | some name => do
      addLog (b!"Trying to connect to " ++ name ++ b!" on port " ++ natDec (← M.gets (·.port)))
      pure 0

/-- `setSocketToNonBlockingWinSock` and `setSocketToBlockingWinSock`, smtpclientbase.cpp:438-458: `ioctlsocket`, recorded as `.fcntlSet`. -/
def winMode (nb : Bool) : M Int := do
  let sock ← M.gets (·.sock)
  match ← sysFcntlSet sock nb with
  | .err e => do logErrno e; pure (if nb then -8 else -7)
  | .ok => pure 0

/-- `sendRawCommand(command, errorCode)` on Windows, smtpclientbase.cpp:668-684: a text longer than the largest `int` is not sent, and nothing is cleaned up. -/
def winSendRaw (onFail : M Unit) (k : SendKind) (cmd : Bytes) (err : Int) : M Int := do
  if 2 ^ 31 - 1 < (cstr cmd).length then pure err else sendRawWith onFail k cmd err

/-- The part of `cleanup` after the QUIT on Windows, smtpclient.cpp:51-71 and securesmtpclientbase.cpp:108-137. Whether `WSACleanup` is called (`mWSAStarted`) is left to `stopFails`; see
`stopWinsock`. `shutdown` and `closesocket` are one event. -/
def winClose (w : WinCalls) : M Unit := do
  closeSession
  match ← M.ask' fun _ h => w.stopFails h with
  | none => pure ()
  | some e => do
    setErrNo e
    addLog (b!"WSACleanup failed with error: " ++ intDec e)

/-- `startTLSNegotiation` on Windows, securesmtpclientbase.cpp:144-258. Opening the certificate store is recorded as `.verifyPaths` (0: it cannot be opened); the loop over the certificates
is in `Verif.Model.WinSock`. -/
def winNegotiate (w : WinCalls) (clean : M Unit) : M Int := do
  addLog b!"<Start TLS negotiation>"
  if (← sysTls .ctxNew) = 0 then do
    M.modify ({ · with ctx := false })
    setErrNo (← M.ask' (·.tlsErr))
    pure (-51)
  else do
    M.modify ({ · with ctx := true })
    let id ← M.histLength
    if (← sysTls .bioNew) = 0 then do
      M.modify ({ · with bio := none })
      pure (-52)
    else do
      let sock ← M.gets (·.sock)
      M.modify ({ · with bio := some { id := id, fd := sock } })
      match ← M.gets (·.serverName) with
      | none => M.stop (.ub .nullDeref)
      | some name =>
        if 1024 ≤ name.length + 1 + (natDec (← M.gets (·.port))).length then M.stop (.ub .outOfBounds)
        else do
          if (← sysTls .verifyPaths) = 0 then do
            setErrNo (← M.ask' fun _ h => w.lastError h)
            pure (-53)
          else do
            if (← sysTls (.connect id)) ≤ 0 then do
              clean
              setErrNo (← M.ask' (·.tlsErr))
              pure (-55)
            else do
              addLog b!"<Negotiate a TLS session>" b!"c & s"
              if (← sysTls (.handshake id)) ≤ 0 then do
                clean
                setErrNo (← M.ask' (·.tlsErr))
                pure (-56)
              else do
                addLog b!"<Check result of negotiation>" b!"c & s"
                if (← sysTls (.peerCert id)) = 0 then do
                  clean
                  pure (-57)
                else do
                  let res ← sysTls (.verifyResult id)
                  if res = 18 ∧ (← M.gets (·.acceptSelfSigned)) = true then do
                    addLog b!"Warning: Self signed certificate" b!"s"
                    addLog b!"TLS session ready!"
                    pure 0
                  else if res ≠ 0 then do
                    addLog (← M.env (·.x509Text res)) b!"s"
                    clean
                    pure (-58)
                  else do
                    addLog b!"TLS session ready!"
                    pure 0

/-- Windows. -/
def windows (w : WinCalls) : Platform where
  init := winInit w
  nonBlocking := winMode true
  blocking := winMode false
  sendRaw := winSendRaw
  close := winClose w
  tls := winNegotiate w

end Verif.Model
