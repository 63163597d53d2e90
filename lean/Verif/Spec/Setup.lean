import Verif.Model.Session
/-!
# Specification: what a session may depend on
-/
namespace Verif.Spec
open Verif Verif.Model

/-- The settings of a client: what its constructor and setters determine (the two members `keep` and `ptrRaw` belong to `setKeepUsingBaseSendCommands`). -/
def SameSetup (c d : Client) : Prop :=
  c.kind = d.kind ∧ c.serverName = d.serverName ∧ c.port = d.port ∧ c.batch = d.batch ∧ c.timeout = d.timeout ∧ c.credential = d.credential ∧
  c.acceptSelfSigned = d.acceptSelfSigned ∧ c.keep = d.keep ∧ c.ptrRaw = d.ptrRaw

/-- A new client with the settings of another. -/
def anew (c : Client) : Client :=
  { kind := c.kind, serverName := c.serverName, port := c.port, batch := c.batch, timeout := c.timeout, log := none, lastResponse := none, lastErrNo := 0,
    authOptions := none, credential := c.credential, sock := 0, keep := c.keep, ptrRaw := c.ptrRaw, isConnected := false, bio := none, ctx := false,
    acceptSelfSigned := c.acceptSelfSigned }

end Verif.Spec
