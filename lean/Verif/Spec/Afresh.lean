import Verif.Model.Session
/-!
# Specification: worlds that answer alike from now on

A TLS connection is known in the history by the number of events before it. To compare what two clients do from some moment on, the numbers are counted from that moment.
-/
namespace Verif.Spec
open Verif Verif.Model

/-- A channel whose number was counted from `n` events on. -/
def chanLater (n : Nat) : Chan → Chan
  | .raw fd => .raw fd
  | .tls id fd => .tls (n + id) fd

/-- The same for the calls of the TLS library. -/
def tlsLater (n : Nat) : TlsOp → TlsOp
  | .connect id => .connect (n + id)
  | .handshake id => .handshake (n + id)
  | .peerCert id => .peerCert (n + id)
  | .verifyResult id => .verifyResult (n + id)
  | op => op

/-- The same for events. -/
def evLater (n : Nat) : Ev → Ev
  | .send k c d r => .send k (chanLater n c) d r
  | .recv c r => .recv (chanLater n c) r
  | .tls op r => .tls (tlsLater n op) r
  | .bioFree id => .bioFree (n + id)
  | e => e

/-- `h`, and then `x`, in which TLS connections are counted from here. -/
def continued (h x : Hist) : Hist := h ++ x.map (evLater h.length)

/-- From now on – after `h` in the one world, after `h'` in the other – both worlds answer the same to the same: operating system, name service, files, TLS library
and server. Standard input – to which the client writes after it has set the number of its socket to 0 – is in the same mode. -/
structure AnswersAlike (e e' : Env) (h h' : Hist) : Prop where
  depth : e.depth = e'.depth
  fuel : e.fuel = e'.fuel
  errText : e.errText = e'.errText
  x509Text : e.x509Text = e'.x509Text
  input : nonblocking 0 h = nonblocking 0 h'
  socket : ∀ x, e.socket (continued h x) = e'.socket (continued h' x)
  resolve : ∀ x n, e.resolve (continued h x) n = e'.resolve (continued h' x) n
  fcntlGet : ∀ x fd, e.fcntlGet (continued h x) fd = e'.fcntlGet (continued h' x) fd
  fcntlSet : ∀ x fd nb, e.fcntlSet (continued h x) fd nb = e'.fcntlSet (continued h' x) fd nb
  connect : ∀ x fd a, e.connect (continued h x) fd a = e'.connect (continued h' x) fd a
  select : ∀ x fd n, e.select (continued h x) fd n = e'.select (continued h' x) fd n
  sockopt : ∀ x fd, e.sockopt (continued h x) fd = e'.sockopt (continued h' x) fd
  send : ∀ x c d, e.send (continued h x) (chanLater h.length c) d = e'.send (continued h' x) (chanLater h'.length c) d
  recv : ∀ x c, e.recv (continued h x) (chanLater h.length c) = e'.recv (continued h' x) (chanLater h'.length c)
  tls : ∀ x op, e.tls (continued h x) (tlsLater h.length op) = e'.tls (continued h' x) (tlsLater h'.length op)
  readFile : ∀ x n, e.readFile (continued h x) n = e'.readFile (continued h' x) n
  tlsErr : ∀ x, e.tlsErr (continued h x) = e'.tlsErr (continued h' x)

/-- Both objects are of the same class and have the same settings. -/
structure SameSettings (c c' : Client) : Prop where
  kind : c.kind = c'.kind
  serverName : c.serverName = c'.serverName
  port : c.port = c'.port
  batch : c.batch = c'.batch
  timeout : c.timeout = c'.timeout
  credential : c.credential = c'.credential
  keep : c.keep = c'.keep
  ptrRaw : c.ptrRaw = c'.ptrRaw
  acceptSelfSigned : c.acceptSelfSigned = c'.acceptSelfSigned

/-- No session is open, and no TLS connection is left over from an earlier one. -/
def AtRest (c : Client) : Prop := c.isConnected = false ∧ c.bio = none

/-- The world as a process sees it that starts after `h`. -/
def afresh (e : Env) (h : Hist) : Env :=
  { depth := e.depth
    fuel := e.fuel
    errText := e.errText
    x509Text := e.x509Text
    socket := fun x => e.socket (continued h x)
    resolve := fun x n => e.resolve (continued h x) n
    fcntlGet := fun x fd => e.fcntlGet (continued h x) fd
    fcntlSet := fun x fd nb => e.fcntlSet (continued h x) fd nb
    connect := fun x fd a => e.connect (continued h x) fd a
    select := fun x fd n => e.select (continued h x) fd n
    sockopt := fun x fd => e.sockopt (continued h x) fd
    send := fun x c d => e.send (continued h x) (chanLater h.length c) d
    recv := fun x c => e.recv (continued h x) (chanLater h.length c)
    tls := fun x op => e.tls (continued h x) (tlsLater h.length op)
    readFile := fun x n => e.readFile (continued h x) n
    tlsErr := fun x => e.tlsErr (continued h x) }

end Verif.Spec
