import Verif.Model.Log
import Verif.Model.Reply
import Verif.Model.Commands
/-!
# The client object, the world around it, and the monad of the session code

Every call to the operating system, the network, the file system and OpenSSL is answered by an *environment*: one function per
kind of call, which sees the complete history of everything that happened before. So the environment can be any deterministic
world, also an adaptive and malicious peer. Every call is recorded, with its answer, at the end of the history.
-/
namespace Verif.Model
open Verif

/-- How a run can end without returning. -/
inductive Stop where
  /-- undefined behaviour -/
  | ub (u : UB)
  /-- deeper recursion than the stack allows (`Env.depth`) -/
  | stackOverflow
  /-- a loop without bound was not finished after `Env.fuel` rounds -/
  | fuel
  /-- a blocking call never returned -/
  | hang
  deriving DecidableEq, Repr

/-- Result of a piece of session code. -/
inductive Res (α : Type) where
  | ok (a : α)
  | stop (e : Stop)
  deriving DecidableEq, Repr

/-- What `send`, `recv`, `BIO_puts` and `BIO_read` are applied to: a socket, or a TLS connection (`BIO*`), identified by a
number and the socket it was linked to by `SSL_set_fd`. -/
inductive Chan where
  | raw (fd : Int)
  | tls (id : Nat) (fd : Int)
  deriving DecidableEq, Repr

/-- Result of system calls that give no value: success, or failure with `errno`. -/
inductive SysRes where
  | ok
  | err (errno : Int)
  deriving DecidableEq, Repr

/-- Result of `socket` and `getsockopt(SO_ERROR)`: a value, or failure with `errno`. -/
inductive ValRes where
  | val (v : Nat)
  | err (errno : Int)
  deriving DecidableEq, Repr

/-- Result of `select`: ready (> 0), time over (0), or failure with `errno`. -/
inductive SelRes where
  | ready
  | timeout
  | err (errno : Int)
  deriving DecidableEq, Repr

/-- Result of `send`/`BIO_puts`: failure (-1 / negative) with the error number, or the number of bytes accepted, which can be
smaller than asked; or the call blocks for ever. -/
inductive SendRes where
  | fail (errno : Int)
  | sent (n : Nat)
  | never
  deriving DecidableEq, Repr

/-- Result of `recv`/`BIO_read` with a buffer of 1024 bytes: data, 0 (closed), -1, or the call blocks for ever. -/
inductive RecvRes where
  | data (d : Bytes)
  | eof
  | err
  | never
  deriving DecidableEq, Repr

/-- Why something is sent; recorded in the history for the statements of the theorems, never looked at by the code: a command
after which the code waits for a reply, a piece of the message, or QUIT. -/
inductive SendKind where
  | cmd
  | content
  | quit
  deriving DecidableEq, Repr

/-- The OpenSSL calls of `startTLSNegotiation` (securesmtpclientbase.cpp:144-258) whose result matters. The last four are about
the connection with the given number. -/
inductive TlsOp where
  | ctxNew
  | bioNew
  | verifyPaths
  | connect (id : Nat)
  | handshake (id : Nat)
  | peerCert (id : Nat)
  | verifyResult (id : Nat)
  deriving DecidableEq, Repr

/-- Public operations of one client object (smtpclientbase.h, securesmtpclientbase.h:50-57). -/
inductive Call where
  | setServerName (p : Option Bytes)
  | setServerPort (n : Nat)
  | setBatchMode (b : Bool)
  | setCommandTimeout (n : Nat)
  | setCredentials (c : Credential)
  | setKeepUsingBaseSendCommands (b : Bool)
  | setAcceptSelfSignedCert (b : Bool)
  | sendMail (m : Message)
  deriving DecidableEq, Repr

/-- A `sockaddr_in`: the four bytes of `sin_addr`, and the port that `htons` was applied to, smtpclientbase.cpp:512-518. -/
structure SockAddr where
  ip : Bytes
  port : Nat
  deriving DecidableEq, Repr

/-- One entry of the history. -/
inductive Ev where
  /-- the user calls the API -/
  | call (c : Call)
  /-- the object is destroyed -/
  | destroy
  | socket (r : ValRes)
  /-- `gethostbyname`: no answer (or one of negative length), or the `h_length` bytes at `h_addr` -/
  | resolve (name : Bytes) (r : Option Bytes)
  | fcntlGet (fd : Int) (r : SysRes)
  | fcntlSet (fd : Int) (nonblock : Bool) (r : SysRes)
  | connect (fd : Int) (to : SockAddr) (r : SysRes)
  | select (fd : Int) (r : SelRes)
  | sockopt (fd : Int) (r : ValRes)
  | send (k : SendKind) (c : Chan) (data : Bytes) (r : SendRes)
  | recv (c : Chan) (r : RecvRes)
  | sleep
  | close (fd : Int)
  | tls (op : TlsOp) (r : Int)
  | bioFree (id : Nat)
  | readFile (name : Bytes) (r : Option Bytes)
  deriving DecidableEq, Repr

/-- The history, oldest entry first. -/
abbrev Hist := List Ev

/-- The world. -/
structure Env where
  /-- how many calls of `cleanup` can be nested -/
  depth : Nat
  /-- how many rounds of a loop without bound are followed -/
  fuel : Nat
  socket : Hist → ValRes
  resolve : Hist → Bytes → Option Bytes
  fcntlGet : Hist → Int → SysRes
  fcntlSet : Hist → Int → Bool → SysRes
  connect : Hist → Int → SockAddr → SysRes
  select : Hist → Int → Nat → SelRes
  sockopt : Hist → Int → ValRes
  send : Hist → Chan → Bytes → SendRes
  recv : Hist → Chan → RecvRes
  tls : Hist → TlsOp → Int
  readFile : Hist → Bytes → Option Bytes
  /-- `ERR_get_error` -/
  tlsErr : Hist → Int
  /-- `strerror` -/
  errText : Int → Bytes
  /-- `X509_verify_cert_error_string` -/
  x509Text : Int → Bytes

/-- Is the socket in non-blocking mode: the last successful `F_SETFL` decides (default: blocking). -/
def nonblocking (fd : Int) (h : Hist) : Bool :=
  h.foldl (fun b e => match e with
    | .fcntlSet fd' nb .ok => if fd' = fd then nb else b
    | .socket (.val v) => if (v : Int) = fd then false else b
    | _ => b) false

/-- The socket a channel works on. -/
def Chan.fd : Chan → Int
  | .raw fd => fd
  | .tls _ fd => fd

/-- What the operating system can answer to a read: at least one and at most 1024 bytes (SERVERRESPONSE_BUFFER_LENGTH), and no
blocking in non-blocking mode. -/
def normRecv (nb : Bool) : RecvRes → RecvRes
  | .data d => if d.isEmpty then .eof else .data (d.take 1024)
  | .eof => .eof
  | .err => .err
  | .never => if nb then .err else .never

/-- What it can answer to a write: not more bytes than given. -/
def normSend (nb : Bool) (len : Nat) : SendRes → SendRes
  | .fail e => .fail e
  | .sent n => .sent (min n len)
  | .never => if nb then .fail 11 else .never

/-- The three client classes. -/
inductive Kind where
  | smtp
  | opportunistic
  | forced
  deriving DecidableEq, Repr

/-- A `BIO*`. -/
structure Bio where
  id : Nat
  fd : Int
  deriving DecidableEq, Repr

/-- The members of `SMTPClientBase` (smtpclientbase.h:207-235) and `SecureSMTPClientBase` (securesmtpclientbase.h:72-77).
`ptrRaw` says whether the two function pointers point to `sendRawCommand`. Pointers to texts are `none` when null. `mSSL` is not
modelled, it always belongs to `mBIO`. -/
structure Client where
  kind : Kind
  serverName : Option Bytes
  port : Nat
  batch : Bool
  timeout : Nat
  log : Option Log
  lastResponse : Option Bytes
  lastErrNo : Int
  authOptions : Option AuthOptions
  credential : Option Credential
  sock : Int
  keep : Bool
  ptrRaw : Bool
  isConnected : Bool
  bio : Option Bio
  ctx : Bool
  acceptSelfSigned : Bool
  deriving DecidableEq, Repr

/-- What a session does to the memory of its client (see `ClientObj.session` in `Verif.Model.ClientHeap`): it replaces the log by an empty one,
writes a log item (into a new buffer or not), replaces the last response, extracts the authentication options from a text. -/
inductive SessionOp where
  | freshLog
  | log (grow : Bool) (s : Bytes)
  | response (s : Bytes)
  | options (text : Bytes)
  deriving DecidableEq, Repr

/-- State of a run. `mem` records what the run has done to the memory of the client; no step depends on it. -/
structure St where
  client : Client
  hist : Hist
  mem : List SessionOp := []
  deriving DecidableEq, Repr

/-- Session code. The state reached is kept also when the run stops. -/
def M (α : Type) := Env → St → Res α × St

namespace M

def pure {α : Type} (a : α) : M α := fun _ s => (.ok a, s)

def bind {α β : Type} (m : M α) (f : α → M β) : M β := fun env s =>
  match m env s with
  | (.ok a, s') => f a env s'
  | (.stop e, s') => (.stop e, s')

instance : Monad M where
  pure := pure
  bind := bind

/-- Stop here. -/
def stop {α : Type} (e : Stop) : M α := fun _ s => (.stop e, s)

/-- Read something from the client object. -/
def gets {α : Type} (f : Client → α) : M α := fun _ s => (.ok (f s.client), s)

/-- Change the client object. -/
def modify (f : Client → Client) : M Unit := fun _ s => (.ok (), { s with client := f s.client })

/-- Change the client object and record what that does to its memory. -/
def modifyMem (op : SessionOp) (f : Client → Client) : M Unit := fun _ s => (.ok (), { s with client := f s.client, mem := s.mem ++ [op] })

/-- Read a constant of the environment. -/
def env {α : Type} (f : Env → α) : M α := fun e s => (.ok (f e), s)

/-- Record an event. -/
def emit (e : Ev) : M Unit := fun _ s => (.ok (), { s with hist := s.hist ++ [e] })

/-- Ask the environment and record the answer. -/
def ask {α : Type} (f : Env → Hist → α) (ev : α → Ev) : M α := fun e s =>
  (.ok (f e s.hist), { s with hist := s.hist ++ [ev (f e s.hist)] })

/-- Ask the environment without a record (`ERR_get_error`). -/
def ask' {α : Type} (f : Env → Hist → α) : M α := fun e s => (.ok (f e s.hist), s)

/-- Number of events so far. -/
def histLength : M Nat := fun _ s => (.ok s.hist.length, s)

end M

/-! ### System calls -/

/-- `socket(AF_INET, SOCK_STREAM, 0)`. -/
def sysSocket : M ValRes := M.ask (fun e h => e.socket h) .socket

/-- `gethostbyname`: found, or null. An answer with a negative length counts as not found (smtpclientbase.cpp:509); what
becomes of addresses that are shorter or longer than four bytes is in `initializePOSIX`. -/
def sysResolve (name : Bytes) : M (Option Bytes) := M.ask (fun e h => e.resolve h name) (.resolve name)

/-- `fcntl(fd, F_GETFL)`. The flags themselves are not modelled. -/
def sysFcntlGet (fd : Int) : M SysRes := M.ask (fun e h => e.fcntlGet h fd) (.fcntlGet fd)

/-- `fcntl(fd, F_SETFL, …)` with or without `O_NONBLOCK`. -/
def sysFcntlSet (fd : Int) (nb : Bool) : M SysRes := M.ask (fun e h => e.fcntlSet h fd nb) (.fcntlSet fd nb)

/-- `connect` to the given address and port. -/
def sysConnect (fd : Int) (to : SockAddr) : M SysRes := M.ask (fun e h => e.connect h fd to) (.connect fd to)

/-- `select` for writing. -/
def sysSelect (fd : Int) (timeout : Nat) : M SelRes := M.ask (fun e h => e.select h fd timeout) (.select fd)

/-- `getsockopt(fd, SOL_SOCKET, SO_ERROR)`. -/
def sysSockopt (fd : Int) : M ValRes := M.ask (fun e h => e.sockopt h fd) (.sockopt fd)

/-- `send(fd, data, length, 0)` or `BIO_puts(bio, data)`. -/
def sysSend (k : SendKind) (c : Chan) (data : Bytes) : M SendRes := do
  let r ← M.ask (fun e h => normSend (nonblocking c.fd h) data.length (e.send h c data)) (.send k c data)
  if r = .never then M.stop .hang else pure r

/-- `recv(fd, outbuf, 1024, 0)` or `BIO_read(bio, outbuf, 1024)`. -/
def sysRecv (c : Chan) : M RecvRes := do
  let r ← M.ask (fun e h => normRecv (nonblocking c.fd h) (e.recv h c)) (.recv c)
  if r = .never then M.stop .hang else pure r

/-- `sleep(1)`, smtpclientbase.cpp:744-750. -/
def sysSleep : M Unit := M.emit .sleep

/-- `close(fd)`. -/
def sysClose (fd : Int) : M Unit := M.emit (.close fd)

/-- One of the OpenSSL calls. -/
def sysTls (op : TlsOp) : M Int := M.ask (fun e h => e.tls h op) (.tls op)

/-- Reading a whole regular file; `none` when it cannot be opened. -/
def sysReadFile (name : Bytes) : M (Option Bytes) := M.ask (fun e h => e.readFile h name) (.readFile name)

end Verif.Model
