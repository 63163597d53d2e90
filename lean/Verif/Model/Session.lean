import Verif.Model.World
import Verif.Model.Mime
/-!
# Model of the session code

`src/smtpclientbase.cpp`, `src/smtpclient.cpp`, `src/securesmtpclientbase.cpp`, `src/opportunisticsecuresmtpclient.cpp`,
`src/forcedsecuresmtpclient.cpp`. The three client classes share this model; a virtual function is a match on the class.
-/
namespace Verif.Model
open Verif

/-! ### Small helpers -/

/-- Decimal digits of a number, as `operator<<` and `%u` print it. -/
def natDec (n : Nat) : Bytes := (Nat.toDigits 10 n).map (fun c => UInt8.ofNat c.toNat)

/-- `addCommunicationLogItem`, smtpclientbase.cpp:1012-1043. `strlen` of a null log is undefined. -/
def addLog (item : Bytes) (pfx : Bytes := b!"c") : M Unit := do
  match ← M.gets (·.log) with
  | none => M.stop (.ub .nullDeref)
  | some l =>
    match l.add item pfx with
    | .error u => M.stop (.ub u)
    | .ok l' => M.modifyMem (.log (l.grows item pfx) l'.content) ({ · with log := some l' })

/-- `setLastSocketErrNo`, smtpclientbase.cpp:306-308. -/
def setErrNo (e : Int) : M Unit := M.modify ({ · with lastErrNo := e })

/-- `setLastSocketErrNo(errno); addCommunicationLogItem(strerror(errno));`, for example smtpclientbase.cpp:504-505. -/
def logErrno (e : Int) : M Unit := do
  setErrNo e
  addLog (← M.env (·.errText e))

/-- `setLastServerResponse`, smtpclientbase.cpp:752-758. -/
def setLastServerResponse (s : Bytes) : M Unit := M.modifyMem (.response (cstr s)) ({ · with lastResponse := some (cstr s) })

/-- `setAuthenticationOptions(extractAuthenticationOptions(text))`, smtpclientbase.cpp:310-313 and 643, securesmtpclientbase.cpp:284. -/
def setAuthOptions (text : Bytes) : M Unit :=
  M.modifyMem (.options (cstr text)) ({ · with authOptions := extractAuthOptions (some text) })

/-- `setKeepUsingBaseSendCommands`, smtpclientbase.cpp:283-292. -/
def setKeepUsingBase (b : Bool) : M Unit := M.modify ({ · with keep := b, ptrRaw := b })

/-! ### Sending and cleaning up -/

/-- `sendRawCommand(command, errorCode)`, smtpclientbase.cpp:668-684; `onFail` is the call of `cleanup`. -/
def sendRawWith (onFail : M Unit) (k : SendKind) (cmd : Bytes) (err : Int) : M Int := do
  let sock ← M.gets (·.sock)
  match ← sysSend k (.raw sock) (cstr cmd) with
  | .fail e => do
    setErrNo e
    onFail
    pure err
  | _ => pure 0

/-- `SecureSMTPClientBase::sendCommand`, securesmtpclientbase.cpp:288-295, and the same lines 302-306. `BIO_puts` on a null
`BIO*` returns a negative number. -/
def sendBioWith (onFail : M Unit) (k : SendKind) (cmd : Bytes) (err : Int) : M Int := do
  match ← M.gets (·.bio) with
  | none => do
    setErrNo (← M.ask' (·.tlsErr))
    onFail
    pure err
  | some b =>
    match ← sysSend k (.tls b.id b.fd) (cstr cmd) with
    | .fail _ => do
      setErrNo (← M.ask' (·.tlsErr))
      onFail
      pure err
    | _ => pure 0

/-- The call through `sendCommandPtr`: `sendRawCommand` when the base commands are kept, otherwise the virtual `sendCommand`
(smtpclient.cpp:100-102, securesmtpclientbase.cpp:288-295). -/
def sendPtrWith (onFail : M Unit) (k : SendKind) (cmd : Bytes) (err : Int) : M Int := do
  if (← M.gets (·.ptrRaw)) || (← M.gets (·.kind)) == .smtp then sendRawWith onFail k cmd err else sendBioWith onFail k cmd err

/-- `QUIT`, smtpclientbase.cpp:735. -/
def quitCmd : Bytes := b!"QUIT\r\n"

/-- `sendQuitCommand`, smtpclientbase.cpp:734-742. -/
def sendQuitWith (onFail : M Unit) : M Int := do
  addLog quitCmd
  sendPtrWith onFail .quit quitCmd (-99)

/-- `BIO_free_all` unless the pointer is null. -/
def emitBioFree : Option Bio → M Unit
  | some b => M.emit (.bioFree b.id)
  | none => pure ()

/-- Freeing the TLS objects, securesmtpclientbase.cpp:109-116. -/
def freeTls : M Unit := do
  M.modify ({ · with ctx := false })
  emitBioFree (← M.gets (·.bio))
  M.modify ({ · with bio := none })

/-- Closing the socket, smtpclient.cpp:52-60 and securesmtpclientbase.cpp:117-126. -/
def closeSocket : M Unit := do
  let sock ← M.gets (·.sock)
  if sock ≠ 0 then do
    sysClose sock
    M.modify ({ · with sock := 0 })
  else M.modify ({ · with sock := 0 })

/-- The part of `cleanup` after the QUIT: smtpclient.cpp:51-60 and securesmtpclientbase.cpp:108-127. -/
def closeSession : M Unit := do
  M.modify ({ · with isConnected := false })
  if (← M.gets (·.kind)) = .smtp then closeSocket
  else do
    freeTls
    closeSocket

/-- `cleanup`, smtpclient.cpp:47-72 and securesmtpclientbase.cpp:104-138. It can call itself through `sendQuitCommand` when
sending fails; the number is the depth of nested calls the stack allows. -/
def cleanupN : Nat → M Unit
  | 0 => M.stop .stackOverflow
  | n + 1 => do
    if (← M.gets (·.batch)) && (← M.gets (·.isConnected)) then do
      let _ ← sendQuitWith (cleanupN n)
      closeSession
    else closeSession

/-- `cleanup` with the stack of the environment. -/
def cleanup : M Unit := do cleanupN (← M.env (·.depth))

/-- `sendRawCommand(command, errorCode)`, smtpclientbase.cpp:668-684. -/
def sendRaw (k : SendKind) (cmd : Bytes) (err : Int) : M Int := sendRawWith cleanup k cmd err

/-- `(*this.*sendCommandPtr)(command, errorCode)`. -/
def sendPtr (k : SendKind) (cmd : Bytes) (err : Int) : M Int := sendPtrWith cleanup k cmd err

/-- `sendQuitCommand`, smtpclientbase.cpp:734-742. -/
def sendQuit : M Int := sendQuitWith cleanup

/-! ### Receiving -/

/-- `if (… < 0) { setLastSocketErrNo(errno); addCommunicationLogItem(strerror(errno)); }`, smtpclientbase.cpp:573-576. -/
def logIfErr : SysRes → M Unit
  | .err e => logErrno e
  | .ok => pure ()

/-- `setSocketToNonBlockingPOSIX`, smtpclientbase.cpp:571-584. -/
def setNonBlocking : M Int := do
  let sock ← M.gets (·.sock)
  logIfErr (← sysFcntlGet sock)
  match ← sysFcntlSet sock true with
  | .err e => do logErrno e; pure (-8)
  | .ok => pure 0

/-- `setSocketToBlockingPOSIX`, smtpclientbase.cpp:586-600. -/
def setBlocking : M Int := do
  let sock ← M.gets (·.sock)
  match ← sysFcntlGet sock with
  | .err e => do logErrno e; pure (-7)
  | .ok =>
    match ← sysFcntlSet sock false with
    | .err e => do logErrno e; pure (-8)
    | .ok => pure 0

/-- Loop of `getRawCommandReply`, smtpclientbase.cpp:693-706, with its variables `waitTime`, `fullResponse` and
`receivedAtLeastOnce`. Writing the terminating NUL after 1024 received bytes is out of bounds. -/
def rawReplyLoop : Nat → Nat → Bytes → Bool → M (Nat × Bytes × Bool)
  | 0, _, _, _ => M.stop .fuel
  | n + 1, wait, acc, got => do
    let sock ← M.gets (·.sock)
    let timeout ← M.gets (·.timeout)
    match ← sysRecv (.raw sock) with
    | .data d =>
      if 1024 ≤ d.length then M.stop (.ub .outOfBounds)
      else if wait < timeout then rawReplyLoop n wait (acc ++ cstr d) true
      else pure (wait, acc ++ cstr d, true)
    | r =>
      if r = .err ∧ got = true then pure (wait, acc, got)
      else do
        sysSleep
        if wait + 1 < timeout then rawReplyLoop n (wait + 1) acc got else pure (wait + 1, acc, got)

/-- `getRawCommandReply`, smtpclientbase.cpp:686-714. -/
def getRawReply : M Int := do
  let _ ← setNonBlocking
  let (wait, acc, got) ← rawReplyLoop (← M.env (·.fuel)) 0 [] false
  let _ ← setBlocking
  if wait < (← M.gets (·.timeout)) ∨ got = true then do
    setLastServerResponse acc
    addLog acc b!"s"
    pure (extractReturnCode (some acc))
  else pure (-1)

/-- One `BIO_read`; on a null `BIO*` it returns a negative number. -/
def bioRead : M RecvRes := do
  match ← M.gets (·.bio) with
  | none => pure .err
  | some b => sysRecv (.tls b.id b.fd)

/-- The waiting loop of `checkServerGreetings` and of `SecureSMTPClientBase::getServerReply` (smtpclientbase.cpp:651-655,
securesmtpclientbase.cpp:321-324, forcedsecuresmtpclient.cpp:85-88). The number is `mCommandTimeOut - waitTime`. The result is
the data when the loop ended with `waitTime < mCommandTimeOut`. -/
def waitLoop (read : M RecvRes) : Nat → M (Option Bytes)
  | 0 => do
    let _ ← read
    pure none
  | n + 1 => do
    match ← read with
    | .data d => pure (some d)
    | _ => do
      sysSleep
      waitLoop read n

/-- The text in the buffer after its last received byte was overwritten by NUL (`outbuf[bytes_received-1] = '\0'`). -/
def bufferText (d : Bytes) : Bytes := cstr d.dropLast

/-- `SecureSMTPClientBase::getServerReply`, securesmtpclientbase.cpp:317-332. -/
def getTlsReply : M Int := do
  match ← waitLoop bioRead (← M.gets (·.timeout)) with
  | some d => do
    setLastServerResponse (bufferText d)
    addLog (bufferText d) b!"s"
    pure (extractReturnCode (some (bufferText d)))
  | none => pure (-1)

/-- The virtual `getServerReply`: smtpclient.cpp:108-110, securesmtpclientbase.cpp:317-332. -/
def getServerReply : M Int := do
  if (← M.gets (·.kind)) == .smtp then getRawReply else getTlsReply

/-! ### Commands with a reply -/

/-- `sendRawCommand(command, errorCode, timeoutCode)`, smtpclientbase.cpp:720-732. -/
def sendRawFb (cmd : Bytes) (err timeout : Int) : M Int := do
  if (← sendRaw .cmd cmd err) ≠ 0 then pure err
  else do
    let code ← getRawReply
    if code ≠ -1 then pure code
    else do
      cleanup
      pure timeout

/-- `SecureSMTPClientBase::sendCommandWithFeedback` once there is a `BIO`, securesmtpclientbase.cpp:302-314. -/
def sendTlsFb (cmd : Bytes) (err timeout : Int) : M Int := do
  if (← sendBioWith cleanup .cmd cmd err) ≠ 0 then pure err
  else do
    let code ← getTlsReply
    if code ≠ -1 then pure code
    else do
      cleanup
      pure timeout

/-- The virtual `sendCommandWithFeedback`: smtpclient.cpp:104-106, securesmtpclientbase.cpp:297-315. -/
def sendFb (cmd : Bytes) (err timeout : Int) : M Int := do
  if (← M.gets (·.kind)) == .smtp || (← M.gets (·.bio)).isNone then sendRawFb cmd err timeout else sendTlsFb cmd err timeout

/-- The call through `sendCommandWithFeedbackPtr`. -/
def sendPtrFb (cmd : Bytes) (err timeout : Int) : M Int := do
  if ← M.gets (·.ptrRaw) then sendRawFb cmd err timeout else sendFb cmd err timeout

/-! ### Opening the session -/

/-- The part of `initializeSessionPOSIX` from `connect` on, smtpclientbase.cpp:526-568. Every path through the `do … while (1)`
leaves it. `EINPROGRESS` is 115, `EINTR` is 4. A descriptor of 1024 or more is outside the `fd_set`. -/
def connectPOSIX (ip : Bytes) : M Int := do
  let sock ← M.gets (·.sock)
  match ← sysConnect sock ⟨ip, (← M.gets (·.port)) % 65536⟩ with
  | .ok => setBlocking
  | .err e =>
    if e = 115 then
      if 1024 ≤ sock then M.stop (.ub .fdSetRange)
      else
        match ← sysSelect sock (← M.gets (·.timeout)) with
        | .err e' =>
          if e' ≠ 4 then do logErrno e'; pure (-2)
          else pure (-3)
        | .ready =>
          match ← sysSockopt sock with
          | .err e' => do logErrno e'; pure (-9)
          | .val v =>
            if v ≠ 0 then do logErrno v; pure (-10)
            else setBlocking
        | .timeout => pure (-3)
    else do
      logErrno e
      pure (-2)

/-- `sin_addr` after it was set to 0 and the address was copied into it, smtpclientbase.cpp:515-518. -/
def sinAddr (a : Bytes) : Bytes := a ++ List.replicate (4 - a.length) 0

/-- `initializeSessionPOSIX`, smtpclientbase.cpp:496-569. The address found is copied with its own length into the four bytes of
`sin_addr`, lines 516-518.  `if (int r = setSocketToNonBlockingPOSIX() != 0) return r;` returns
the value of the comparison, 1. -/
def initializePOSIX : M Int := do
  match ← sysSocket with
  | .err e => do
    M.modify ({ · with sock := -1 })
    logErrno e
    pure (-1)
  | .val fd => do
    M.modify ({ · with sock := (fd : Int) })
    match ← M.gets (·.serverName) with
    | none => M.stop (.ub .nullDeref)
    | some name =>
      match ← sysResolve name with
      | none => pure (-6)
      | some a =>
        if 4 < a.length then M.stop (.ub .outOfBounds)
        else do
          if (← setNonBlocking) ≠ 0 then pure 1
          else do
            addLog (b!"Trying to connect to " ++ name ++ b!" on port " ++ natDec (← M.gets (·.port)))
            connectPOSIX (sinAddr a)

/-- `initializeSession`, smtpclientbase.cpp:375-386. -/
def initializeSession : M Int := do
  M.modifyMem .freshLog ({ · with log := some .fresh })
  initializePOSIX

/-- The end of `checkServerGreetings`, smtpclientbase.cpp:656-665 and forcedsecuresmtpclient.cpp:89-98. -/
def greetingResult (r : Option Bytes) : M Int := do
  match r with
  | some d => do
    addLog (bufferText d) b!"s"
    let code := extractReturnCode (some (bufferText d))
    if code = 220 then do
      addLog b!"Connected!"
      pure code
    else pure code
  | none => pure (-3)

/-- The virtual `checkServerGreetings`, smtpclientbase.cpp:647-666 and forcedsecuresmtpclient.cpp:81-99. -/
def checkServerGreetings : M Int := do
  if (← M.gets (·.kind)) == .forced then
    greetingResult (← waitLoop bioRead (← M.gets (·.timeout)))
  else do
    let sock ← M.gets (·.sock)
    greetingResult (← waitLoop (sysRecv (.raw sock)) (← M.gets (·.timeout)))

/-- `ehlo localhost`, smtpclientbase.cpp:622 and securesmtpclientbase.cpp:263. -/
def ehloCmd : Bytes := b!"ehlo localhost\r\n"

/-- `getLastServerResponse()` used as a text; undefined when null. -/
def lastResponseText : M Bytes := do
  match ← M.gets (·.lastResponse) with
  | none => M.stop (.ub .nullDeref)
  | some s => pure s

/-- The loop `while (!containsAllOptions(returnedOptions))`, smtpclientbase.cpp:633-641 and securesmtpclientbase.cpp:274-282.
The result is an error code or the complete text. -/
def ehloLoop (timeoutCode : Int) : Nat → Bytes → M (Int ⊕ Bytes)
  | 0, _ => M.stop .fuel
  | n + 1, options =>
    if containsAllOptions options then pure (.inr options)
    else do
      let code ← getServerReply
      if code = -1 then pure (.inl timeoutCode)
      else if code ≠ 250 then pure (.inl code)
      else do
        let r ← lastResponseText
        ehloLoop timeoutCode n (options ++ b!"\n" ++ r)

/-- `sendServerIdentification` and `getServerSecureIdentification` from the EHLO on, smtpclientbase.cpp:620-645 and
securesmtpclientbase.cpp:263-285; they differ in the error codes only. -/
def identify (err timeoutCode : Int) : M Int := do
  addLog ehloCmd
  let code ← sendFb ehloCmd err timeoutCode
  if code ≠ 250 then pure code
  else do
    let first ← lastResponseText
    match ← ehloLoop timeoutCode (← M.env (·.fuel)) first with
    | .inl e => pure e
    | .inr options => do
      setAuthOptions options
      pure 250

/-- `sendServerIdentification`, smtpclientbase.cpp:620-645. -/
def sendServerIdentification : M Int := identify (-20) (-21)

/-- `getServerSecureIdentification`, securesmtpclientbase.cpp:260-286. -/
def getServerSecureIdentification : M Int := do
  addLog b!"Contacting the server again but via the secure channel..."
  identify (-59) (-60)

/-- `startTLSNegotiation`, securesmtpclientbase.cpp:144-258. The name buffer has 1024 bytes. `SSL_CTX_new` and
`BIO_new_ssl_connect` overwrite what was there before. The number of the new connection is the length of the history, which is
never used twice. `X509_V_OK` is 0, `X509_V_ERR_DEPTH_ZERO_SELF_SIGNED_CERT` is 18. -/
def startTLSNegotiation : M Int := do
  addLog b!"<Start TLS negotiation>"
  if (← sysTls .ctxNew) = 0 then do
    M.modify ({ · with ctx := false })
    setErrNo (← M.ask' (·.tlsErr))
    pure (-51)
  else do
    M.modify ({ · with ctx := true })
    let id ← M.histLength
    if (← sysTls .bioNew) = 0 then do
      M.modify ({ · with bio := none })
      pure (-52)
    else do
      let sock ← M.gets (·.sock)
      M.modify ({ · with bio := some { id := id, fd := sock } })
      match ← M.gets (·.serverName) with
      | none => M.stop (.ub .nullDeref)
      | some name =>
        if 1024 ≤ name.length + 1 + (natDec (← M.gets (·.port))).length then M.stop (.ub .outOfBounds)
        else do
          if (← sysTls .verifyPaths) = 0 then pure (-54)
          else do
            if (← sysTls (.connect id)) ≤ 0 then do
              cleanup
              setErrNo (← M.ask' (·.tlsErr))
              pure (-55)
            else do
              addLog b!"<Negotiate a TLS session>" b!"c & s"
              if (← sysTls (.handshake id)) ≤ 0 then do
                cleanup
                setErrNo (← M.ask' (·.tlsErr))
                pure (-56)
              else do
                addLog b!"<Check result of negotiation>" b!"c & s"
                if (← sysTls (.peerCert id)) = 0 then do
                  cleanup
                  pure (-57)
                else do
                  let res ← sysTls (.verifyResult id)
                  if res = 18 ∧ (← M.gets (·.acceptSelfSigned)) = true then do
                    addLog b!"Warning: Self signed certificate" b!"s"
                    addLog b!"TLS session ready!"
                    pure 0
                  else if res ≠ 0 then do
                    addLog (← M.env (·.x509Text res)) b!"s"
                    cleanup
                    pure (-58)
                  else do
                    addLog b!"TLS session ready!"
                    pure 0

/-! ### Authentication -/

/-- `authenticateWithMethodPlain`, smtpclientbase.cpp:783-795. -/
def authPlainM (c : Credential) : M Int := do
  addLog b!"AUTH PLAIN ***************\r\n"
  sendPtrFb (authPlain c) (-81) (-82)

/-- `authenticateWithMethodLogin`, smtpclientbase.cpp:797-821. -/
def authLoginM (c : Credential) : M Int := do
  addLog b!"AUTH LOGIN ***************\r\n"
  if (← sendPtrFb b!"AUTH LOGIN\r\n" (-81) (-82)) ≠ 334 then pure (-81)
  else do
    if (← sendPtrFb (authLoginLine c.username) (-81) (-82)) ≠ 334 then pure (-81)
    else sendPtrFb (authLoginLine c.password) (-81) (-82)

/-- `authenticatedWithMethodXOauth2`, smtpclientbase.cpp:823-836. -/
def authXOAuth2M (c : Credential) : M Int := do
  addLog b!"XOauth 2 ***************\r\n"
  sendPtrFb (authXOAuth2 c) (-81) (-82)

/-- `authenticateClient`, smtpclientbase.cpp:760-781. `mAuthOptions` is dereferenced without a test. -/
def authenticateClient : M Int := do
  match ← M.gets (·.credential) with
  | none => pure (-83)
  | some c =>
    match ← M.gets (·.authOptions) with
    | none => M.stop (.ub .nullDeref)
    | some o =>
      if o.plain && (c.method == .implicit || c.method == .plain) then authPlainM c
      else if o.login && (c.method == .implicit || c.method == .login) then authLoginM c
      else if o.xoauth2 && (c.method == .implicit || c.method == .xoauth2) then authXOAuth2M c
      else pure (-84)

/-- The last step of the three `establishConnectionWithServer`, smtpclient.cpp:90-97, opportunisticsecuresmtpclient.cpp:81-86,
forcedsecuresmtpclient.cpp:72-78. -/
def authenticateIfNeeded : M Int := do
  if (← M.gets (·.credential)).isSome then do
    let code ← authenticateClient
    if code ≠ 235 then pure code else pure 0
  else pure 0

/-! ### Establishing the connection -/

/-- `OpportunisticSecureSMTPClient::isStartTLSSupported`, opportunisticsecuresmtpclient.cpp:103-114. -/
def isStartTLSSupported (p : Option Bytes) : Except UB Bool :=
  match p with
  | none => .ok false
  | some s =>
    if s.length = 0 then .ok false
    else match trim s with
      | .error u => .error u
      | .ok t => if t.isEmpty then .ok false else .ok (findSub b!"250-STARTTLS" s).isSome

/-- `STARTTLS`, opportunisticsecuresmtpclient.cpp:95. -/
def startTlsCmd : Bytes := b!"STARTTLS\r\n"

/-- `upgradeToSecureConnection`, opportunisticsecuresmtpclient.cpp:94-100. -/
def upgradeToSecureConnection : M Int := do
  addLog startTlsCmd
  sendRawFb startTlsCmd (-30) (-31)

/-- The rest of `OpportunisticSecureSMTPClient::establishConnectionWithServer`, opportunisticsecuresmtpclient.cpp:67-92. -/
def establishOpportunistic : M Int := do
  match isStartTLSSupported (← M.gets (·.lastResponse)) with
  | .error u => M.stop (.ub u)
  | .ok true => do
    addLog b!"Info: STARTTLS is available by the server, the communication will be encrypted."
    let code ← upgradeToSecureConnection
    if code ≠ 220 then pure code
    else do
      let code ← startTLSNegotiation
      if code ≠ 0 then pure code
      else do
        let code ← getServerSecureIdentification
        if code ≠ 250 then pure code
        else authenticateIfNeeded
  | .ok false => do
    addLog b!"Info: STARTTLS is not an available option by the server, the communication will then remain unencrypted."
    setKeepUsingBase true
    pure 0

/-- The rest of `ForcedSecureSMTPClient::establishConnectionWithServer`, forcedsecuresmtpclient.cpp:57-79. -/
def establishForced : M Int := do
  let code ← startTLSNegotiation
  if code ≠ 0 then pure code
  else do
    let code ← checkServerGreetings
    if code ≠ 220 then pure code
    else do
      let code ← getServerSecureIdentification
      if code ≠ 250 then pure code
      else authenticateIfNeeded

/-- The rest of the other two after `initializeSession`, smtpclient.cpp:80-97, opportunisticsecuresmtpclient.cpp:57-92. -/
def establishGreeted (rest : M Int) : M Int := do
  let code ← checkServerGreetings
  if code ≠ 220 then pure code
  else do
    let code ← sendServerIdentification
    if code ≠ 250 then pure code
    else rest

/-- `establishConnectionWithServer`, smtpclient.cpp:74-98, opportunisticsecuresmtpclient.cpp:51-92,
forcedsecuresmtpclient.cpp:51-79. -/
def establish : M Int := do
  let code ← initializeSession
  if code ≠ 0 then pure code
  else
    match ← M.gets (·.kind) with
    | .smtp => establishGreeted authenticateIfNeeded
    | .opportunistic => establishGreeted establishOpportunistic
    | .forced => establishForced

/-! ### Sending a message -/

/-- The loop over the MAIL FROM forms, smtpclientbase.cpp:849-865: the result is 250 or the code to return. -/
def mailFromLoop : Int → List Bytes → M Int
  | last, [] => pure last
  | _, f :: fs => do
    addLog f
    let code ← sendPtrFb f (-85) (-86)
    if code = 250 then pure 250
    else if code ≠ 501 then pure code
    else mailFromLoop code fs

/-- `addMailRecipients`, smtpclientbase.cpp:883-895: goes on after a failure; the last failing code is the result. -/
def addMailRecipients : Int → List MessageAddress → M Int
  | ret, [] => pure ret
  | ret, a :: as => do
    addLog (rcptTo a)
    let code ← sendPtrFb (rcptTo a) (-87) (-88)
    addMailRecipients (if code ≠ 250 then code else ret) as

/-- The elements of an array with a count, as `std::vector(p, p + count)` and `for_each(p, p + count)` read them. -/
def arrElems {α : Type} (a : Arr α) : M (List α) :=
  match a.ptr with
  | none => if a.count = 0 then pure [] else M.stop (.ub .nullDeref)
  | some l => if a.count ≤ l.length then pure (l.take a.count) else M.stop (.ub .outOfBounds)

/-- The loop over the three recipient lists, smtpclientbase.cpp:868-880; null lists are skipped. -/
def recipientsLoop : List (Arr MessageAddress) → M Int
  | [] => pure 0
  | a :: rest =>
    if a.ptr.isNone then recipientsLoop rest
    else do
      let code ← addMailRecipients 250 (← arrElems a)
      if code ≠ 250 then pure code else recipientsLoop rest

/-- `setMailRecipients`, smtpclientbase.cpp:838-881. -/
def setMailRecipients (m : Message) : M Int := do
  let code ← mailFromLoop 0 (mailFormats m.from)
  if code ≠ 250 then pure code else recipientsLoop [m.to, m.cc, m.bcc]

/-- `addMailHeader`, smtpclientbase.cpp:952-957. -/
def addMailHeader (field value : Bytes) (err : Int) : M Int := do
  addLog (headerLine field value)
  sendPtr .content (headerLine field value) err

/-- The To and Cc headers, smtpclientbase.cpp:921-931: the result of sending is ignored. -/
def addressHeader (field : Bytes) (a : Arr MessageAddress) : M Unit := do
  if 0 < a.count then do
    let l ← arrElems a
    let _ ← addMailHeader field (generateHeaderAddressValues l) (-92)
    pure ()
  else pure ()

/-- `DATA`, smtpclientbase.cpp:899. -/
def dataCmd : Bytes := b!"DATA\r\n"

/-- `setMailHeaders`, smtpclientbase.cpp:897-950. -/
def setMailHeaders (m : Message) : M Int := do
  addLog dataCmd
  let code ← sendPtrFb dataCmd (-89) (-90)
  if code ≠ 354 then pure code
  else do
    let code ← addMailHeader b!"From" (fromHeaderValue m.from) (-91)
    if code ≠ 0 then pure code
    else do
      addressHeader b!"To" m.to
      addressHeader b!"Cc" m.cc
      addLog (subjectLine m.subject)
      let code ← sendPtr .content (subjectLine m.subject) (-93)
      if code ≠ 0 then pure code
      else do
        addLog contentTypeLine
        let code ← sendPtr .content contentTypeLine (-94)
        if code ≠ 0 then pure code else pure 0

/-- `Attachment::getBase64EncodedFile`, attachment.cpp:132-153: the size is narrowed to 32 bits; `none` when the file cannot be
opened. Regular files only. -/
def base64EncodedFile (a : Attachment) : M (Option Bytes) := do
  match ← sysReadFile a.filename with
  | none => pure none
  | some content => pure (some (cstr (Base64.encode (content.take (content.length % 2 ^ 32)))))

/-- The header of an attachment part, smtpclientbase.cpp:1048-1057. -/
def attachmentHeader (a : Attachment) : Bytes :=
  b!"\r\n--sep\r\n" ++ b!"Content-Type: " ++ a.mimeType ++ b!"; file=\"" ++ a.name ++ b!"\"\r\n" ++
  (if a.contentId.length > 0 then
    b!"X-Attachment-Id: " ++ a.contentId ++ b!"\r\n" ++ b!"Content-ID: <" ++ a.contentId ++ b!">\r\n" ++
    b!"Content-Disposition: attachment; filename=\"" ++ a.name ++ b!"\"\r\n"
   else b!"Content-Disposition: Inline; filename=\"" ++ a.name ++ b!"\"\r\n") ++
  b!"Content-Transfer-Encoding: base64\r\n\r\n"

/-- The loop of `createAttachmentsText`, smtpclientbase.cpp:1047-1063. -/
def attachmentsLoop : List Attachment → M Bytes
  | [] => pure []
  | a :: as => do
    let b64 ← base64EncodedFile a
    let rest ← attachmentsLoop as
    pure (attachmentHeader a ++ b64.getD [] ++ rest)

/-- `createAttachmentsText`, smtpclientbase.cpp:1045-1066. -/
def createAttachmentsText (l : List Attachment) : M Bytes := do
  pure ((← attachmentsLoop l) ++ b!"\r\n--sep--")

/-- The pieces of the loop smtpclientbase.cpp:977-987, from index `i` on. The first number bounds the rounds; every round moves
the index by 512, so the length of the text is enough. -/
def bodyPieces (body : Bytes) : Nat → Nat → List Bytes
  | 0, _ => []
  | n + 1, i =>
    if i < body.length then
      let len := if i + 512 > body.length - 1 then body.length - i else 512
      substr body i len :: bodyPieces body n (i + 512)
    else []

/-- The sending loop, smtpclientbase.cpp:977-987. -/
def sendPieces : List Bytes → M Int
  | [] => pure 0
  | p :: ps => do
    let code ← sendPtr .content p (-95)
    if code ≠ 0 then pure code else sendPieces ps

/-- smtpclientbase.cpp:974-993. -/
def sendBodyText (body : Bytes) : M Int :=
  if body.length > 512 then sendPieces (bodyPieces body body.length 0)
  else do
    let code ← sendPtr .content body (-96)
    if code ≠ 0 then pure code else pure 0

/-- End of data, smtpclientbase.cpp:996. -/
def endOfData : Bytes := b!"\r\n.\r\n"

/-- The complete text of the body, smtpclientbase.cpp:961-972. -/
def fullBody (m : Message) : M Bytes := do
  let atts ← arrElems m.attachments
  if 0 < m.attachments.count then do
    let t ← createAttachmentsText atts
    pure (bodyPart m.mime m.body ++ t)
  else pure (bodyPart m.mime m.body)

/-- `setMailBody`, smtpclientbase.cpp:959-1010. -/
def setMailBody (m : Message) : M Int := do
  addLog (bodyPart m.mime m.body)
  let body ← fullBody m
  let code ← sendBodyText body
  if code ≠ 0 then pure code
  else do
    addLog endOfData
    let code ← sendPtrFb endOfData (-97) (-98)
    if code ≠ 250 then pure code
    else if ← M.gets (·.batch) then pure 0
    else do
      let code ← sendQuit
      if code ≠ 0 then pure code else pure 0

/-- The part of `sendMail` after the recipients, smtpclientbase.cpp:358-371. -/
def sendMailRest (m : Message) : M Int := do
  let code ← setMailHeaders m
  if code ≠ 0 then pure code
  else do
    let code ← setMailBody m
    if code ≠ 0 then pure code
    else if ← M.gets (·.batch) then pure 0
    else do
      cleanup
      pure 0

/-- The part of `sendMail` on an open session, smtpclientbase.cpp:351-371. -/
def sendMailConnected (m : Message) : M Int := do
  M.modify ({ · with isConnected := true })
  let code ← setMailRecipients m
  if code ≠ 0 then pure code else sendMailRest m

/-- `sendMail`, smtpclientbase.cpp:344-372. -/
def sendMail (m : Message) : M Int := do
  if ← M.gets (·.isConnected) then sendMailConnected m
  else do
    let code ← establish
    if code ≠ 0 then pure code else sendMailConnected m

/-! ### The client object -/

/-- A fresh client, smtpclientbase.cpp:42-64, securesmtpclientbase.cpp:29-35. -/
def Client.init (kind : Kind) (name : Bytes) (port : Nat) : Client :=
  { kind := kind, serverName := some name, port := port, batch := false, timeout := 5, log := none, lastResponse := none,
    lastErrNo := 0, authOptions := none, credential := none, sock := 0, keep := false, ptrRaw := false, isConnected := false,
    bio := none, ctx := false, acceptSelfSigned := false }

/-- The constructor with its test, smtpclientbase.cpp:56-63. -/
def Client.new (kind : Kind) (p : Option Bytes) (port : Nat) : Except Fail Client :=
  match checkName p with
  | .error e => .error e
  | .ok name => .ok (Client.init kind name port)

/-- What an API call gives back. -/
inductive CallRes where
  | done
  | threw
  | returned (code : Int)
  deriving DecidableEq, Repr

/-- `setServerName`, smtpclientbase.cpp:258-268. -/
def setServerName (p : Option Bytes) : M CallRes :=
  match checkName p with
  | .error .invalidArgument => pure .threw
  | .error (.ub u) => M.stop (.ub u)
  | .ok name => do
    M.modify ({ · with serverName := some name })
    pure .done

/-- One API call; setters: smtpclientbase.cpp:254-292, securesmtpclientbase.cpp:100-102. -/
def doCall (c : Call) : M CallRes := do
  M.emit (.call c)
  match c with
  | .setServerName p => setServerName p
  | .setServerPort n => do M.modify ({ · with port := n }); pure .done
  | .setBatchMode b => do M.modify ({ · with batch := b }); pure .done
  | .setCommandTimeout n => do M.modify ({ · with timeout := n }); pure .done
  | .setCredentials c => do M.modify ({ · with credential := some c }); pure .done
  | .setKeepUsingBaseSendCommands b => do setKeepUsingBase b; pure .done
  | .setAcceptSelfSignedCert b => do M.modify ({ · with acceptSelfSigned := b }); pure .done
  | .sendMail m => do pure (.returned (← sendMail m))

/-- A sequence of API calls on one object. -/
def runCalls : List Call → M (List CallRes)
  | [] => pure []
  | c :: cs => do
    let r ← doCall c
    let rs ← runCalls cs
    pure (r :: rs)

/-- The destructor as far as the session is concerned: smtpclient.cpp:22-24, securesmtpclientbase.cpp:37-39. -/
def destroy : M Unit := do
  M.emit .destroy
  cleanup

/-- The whole life of an object. -/
def life (cs : List Call) : M (List CallRes) := do
  let rs ← runCalls cs
  destroy
  pure rs

end Verif.Model
