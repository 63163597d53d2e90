import Verif.Proofs.Setup
import Verif.Props.Served
/-!
# C68: a mail does not depend on the mails before
-/
namespace Verif.Props
open Verif Verif.Model Verif.Spec Verif.Proofs

theorem asOne_of {b : Bool} {c d : Client} {h : Hist} {m n : List SessionOp} (hs : SameSetup c d) (hc : c.isConnected = false) (hd : d.isConnected = false)
    (hb : b = true → c.bio = d.bio) (hk : b = true ∨ c.kind = .forced) : AsOne b { client := c, hist := h, mem := m } { client := d, hist := h, mem := n } := by
  obtain ⟨h1, h2, h3, h4, h5, h6, h7, h8, h9⟩ := hs
  refine ⟨⟨rfl, h1, h2, h3, h4, h5, h6, h7, h8, h9, hc.trans hd.symm, ?_, ?_, ?_, nofun, nofun⟩, hk⟩
  · show c.isConnected = true → _; simp [hc]
  · show c.isConnected = true → _; simp [hc]
  · show (b || c.isConnected) = true → _; simpa [hc] using hb

/-- **C68** (partial). Two clients that are not connected, with the same settings, at the same point of the same history: whatever calls follow
and whatever the server and the operating system do, the results of the calls are the same, and so is everything they do. The last response, the
authentication options, the log, the old socket and the error number of the sessions before play no role.
Missing: opportunistic clients with different TLS connections left over from before (`C68_after_rejected_login`); the flag of the base send commands is among the
settings (`C68_after_plain_session`). -/
theorem C68_no_residue_partial (env : Env) (cs : List Call) (c d : Client) (h : Hist) (hs : SameSetup c d)
    (hc : c.isConnected = false) (hd : d.isConnected = false) (hb : c.bio = d.bio ∨ c.kind = .forced) :
    (runCalls cs env { client := c, hist := h }).1 = (runCalls cs env { client := d, hist := h }).1 ∧
    (runCalls cs env { client := c, hist := h }).2.hist = (runCalls cs env { client := d, hist := h }).2.hist := by
  have key : ∃ b, AsOne b { client := c, hist := h } { client := d, hist := h } := by
    rcases hb with hb | hb
    · exact ⟨true, asOne_of hs hc hd (fun _ => hb) (.inl rfl)⟩
    · exact ⟨false, asOne_of hs hc hd nofun (.inr hb)⟩
  obtain ⟨b, hb⟩ := key
  have := (asOne_runCalls (env := env) cs).run _ _ hb
  exact ⟨this.1, this.2.2⟩

/-- **C68** (partial). A single mail: also the communication log and the settings are the same afterwards. -/
theorem C68_same_log_partial (env : Env) (m : Message) (c d : Client) (h : Hist) (hs : SameSetup c d)
    (hc : c.isConnected = false) (hd : d.isConnected = false) (hb : c.bio = d.bio ∨ c.kind = .forced) :
    (sendMail m env { client := c, hist := h }).1 = (sendMail m env { client := d, hist := h }).1 ∧
    (sendMail m env { client := c, hist := h }).2.hist = (sendMail m env { client := d, hist := h }).2.hist ∧
    (sendMail m env { client := c, hist := h }).2.client.log = (sendMail m env { client := d, hist := h }).2.client.log ∧
    (sendMail m env { client := c, hist := h }).2.client.isConnected = (sendMail m env { client := d, hist := h }).2.client.isConnected ∧
    SameSetup (sendMail m env { client := c, hist := h }).2.client (sendMail m env { client := d, hist := h }).2.client := by
  have key : ∃ b, AsOne b { client := c, hist := h } { client := d, hist := h } := by
    rcases hb with hb | hb
    · exact ⟨true, asOne_of hs hc hd (fun _ => hb) (.inl rfl)⟩
    · exact ⟨false, asOne_of hs hc hd nofun (.inr hb)⟩
  obtain ⟨b, hb⟩ := key
  have e : ∀ c' : Client, c'.isConnected = false → sendMail m env { client := c', hist := h } =
      (do let code ← establish
          if code ≠ 0 then pure code else sendMailConnected m : M Int) env { client := c', hist := h } := by
    intro c' hc'
    unfold sendMail
    rw [bind_run, gets_run]
    dsimp only
    rw [hc']
    rfl
  rw [e c hc, e d hd]
  obtain ⟨h1, -, h3⟩ := (asOne_mail_off (env := env) m).run _ _ ⟨hb, hc⟩
  exact ⟨h1, h3.hist, h3.log rfl, h3.isConnected, h3.kind, h3.serverName, h3.port, h3.batch, h3.timeout, h3.credential, h3.acceptSelfSigned, h3.keep, h3.ptrRaw⟩

theorem kind_lifelong : Lifelong (fun s s' : St => s'.client.kind = s.client.kind) where
  toAnything := kind_anything
  call := fun _ _ => rfl
  destroy := fun _ => rfl
  setKeep := fun _ _ => rfl
  serverName := fun _ _ => rfl
  port := fun _ _ => rfl
  batch := fun _ _ => rfl
  timeout := fun _ _ => rfl
  credential := fun _ _ => rfl
  accept := fun _ _ => rfl

/-- **C68 for the plain and the forced client.** After any calls `before`, whatever came of them, a client that is not connected goes on exactly like a newly made
client with the same settings would. -/
theorem C68_like_new (env : Env) (k : Kind) (hk : k ≠ .opportunistic) (name : Bytes) (port : Nat) (before : List Call) (rs : List CallRes) (s : St)
    (hr : runCalls before env { client := Client.init k name port, hist := [] } = (.ok rs, s)) (hc : s.client.isConnected = false) (after : List Call) :
    (runCalls after env s).1 = (runCalls after env { client := anew s.client, hist := s.hist }).1 ∧
    (runCalls after env s).2.hist = (runCalls after env { client := anew s.client, hist := s.hist }).2.hist := by
  have t : Told name port { client := Client.init k name port, hist := [] } :=
    ⟨⟨sentLed_same, by simp [Client.init], by simp [Client.init], by simp [Client.init]⟩, name, rfl, .start⟩
  have h1 := runCalls_told (env := env) before _ t
  have hk' : s.client.kind = k := by
    have := (haveI := kind_lifelong; runCalls_steps (env := env) (R := fun s s' : St => s'.client.kind = s.client.kind) before).state { client := Client.init k name port, hist := [] }
    rw [hr] at this
    exact this
  unfold wp at h1
  rw [hr] at h1
  have hp := h1.rest.plain
  have same : SameSetup s.client (anew s.client) := ⟨rfl, rfl, rfl, rfl, rfl, rfl, rfl, rfl, rfl⟩
  obtain ⟨c, h, m⟩ := s
  have key : ∃ b, AsOne b { client := c, hist := h, mem := m } { client := anew c, hist := h } := by
    cases hK : k with
    | opportunistic => exact absurd hK hk
    | smtp => exact ⟨true, asOne_of same hc rfl (fun _ => hp (hk'.trans hK)) (.inl rfl)⟩
    | forced => exact ⟨false, asOne_of same hc rfl nofun (.inr (hk'.trans hK))⟩
  obtain ⟨b, hb⟩ := key
  have := (asOne_runCalls (env := env) after).run _ _ hb
  exact ⟨this.1, this.2.2⟩

/-! ### What is left behind by an opportunistic client -/

def joesPassword : Call := .setCredentials { username := b!"joe", password := b!"secret" }

/-- TLS is negotiated, the login is refused; the next session begins the same way. -/
def rejectedLogin : Env := numbered (scripted
  ([.data b!"220 hi\r\n"] ++ clear [b!"250-STARTTLS\r\n250 ok\r\n", b!"220 go\r\n"] ++ [.data b!"250-AUTH PLAIN\r\n250 ok\r\n", .data b!"535 no\r\n"] ++
   [.data b!"220 hi\r\n"] ++ clear [b!"250-STARTTLS\r\n250 ok\r\n"]))

/-- **C68 is false for the opportunistic client**: when the login was refused (535), the client is not connected but keeps the TLS connection on descriptor 5. In
the next session, on descriptor 6, it says EHLO over the old TLS connection and takes its options from the answer there; a new client with the same
settings says it on the new connection. -/
theorem C68_after_rejected_login :
    (let s := (runCalls [joesPassword, .sendMail mail] rejectedLogin (fresh .opportunistic)).2
     let cmds := fun h : Hist => (h.drop s.hist.length).filter fun e => e matches .send .cmd _ _ _
     ((runCalls [joesPassword, .sendMail mail] rejectedLogin (fresh .opportunistic)).1, s.client.isConnected,
      cmds (runCalls [.sendMail mail] rejectedLogin s).2.hist,
      cmds (runCalls [.sendMail mail] rejectedLogin { client := anew s.client, hist := s.hist }).2.hist)) =
    (.ok [.done, .returned 535], false,
     [.send .cmd (.tls 25 5) b!"ehlo localhost\r\n" (.sent 16), .send .cmd (.raw 6) b!"STARTTLS\r\n" (.sent 10)],
     [.send .cmd (.raw 6) b!"ehlo localhost\r\n" (.sent 16), .send .cmd (.raw 6) b!"STARTTLS\r\n" (.sent 10)]) := by decide +kernel

/-- Why the flag of the base send commands has to be the same: no user of an opportunistic client set it, the first session did (its server has no
STARTTLS). The second session logs in beside the TLS connection; a client that never had the first session logs in over it. -/
theorem C68_after_plain_session :
    (let s := (runCalls [joesPassword, .sendMail mail] (scripted stickyScript) (fresh .opportunistic)).2
     let auths := fun h : Hist => (h.drop s.hist.length).filterMap fun e =>
       match e with | .send .cmd c d _ => if d.take 4 = b!"AUTH" then some c else none | _ => none
     (s.client.isConnected, s.client.bio, s.client.ptrRaw,
      auths (runCalls [.sendMail mail] (scripted stickyScript) s).2.hist,
      auths (runCalls [.sendMail mail] (scripted stickyScript) { client := { anew s.client with keep := false, ptrRaw := false }, hist := s.hist }).2.hist)) =
    (false, none, true, [.raw 5], [.tls 76 5]) := by decide +kernel

/-- The plain client after a mail and a failed one: not connected, with a last response, options, a log; then one more mail goes through, as with a new client. -/
example :
    (let r := runCalls [joesPassword, .sendMail mail] (scripted ([.data b!"220 hi\r\n"] ++ clear [b!"250-AUTH PLAIN\r\n250 ok\r\n", b!"535 no\r\n"] ++ wholeTalk)) (fresh .smtp)
     let s := r.2
     (r.1, s.client.isConnected, s.client.lastResponse.isSome, s.client.authOptions.isSome, s.client.log.isSome, s.client.sock,
      s.client.kind)) = (.ok [.done, .returned 535], false, true, true, true, 5, .smtp) := by decide +kernel

/-- The forced client after a refused login: a TLS connection is left over (hence `C68_like_new` says something for it). -/
example :
    (let r := runCalls [joesPassword, .sendMail mail] (scripted [.data b!"220 hi\r\n", .data b!"250-AUTH PLAIN\r\n250 ok\r\n", .data b!"535 no\r\n"]) (fresh .forced)
     (r.1, r.2.client.isConnected, r.2.client.bio.isSome)) = (.ok [.done, .returned 535], false, true) := by decide +kernel

/-- The same settings, different pasts: the hypotheses of `C68_no_residue_partial`. -/
example :
    (let s := (runCalls [joesPassword, .sendMail mail] (scripted stickyScript) (fresh .opportunistic)).2
     (s.client.isConnected, s.client.bio, s.client.lastResponse.isSome, (anew s.client).lastResponse)) = (false, none, true, none) ∧
    ∀ c, SameSetup c (anew c) :=
  ⟨by decide +kernel, fun _ => ⟨rfl, rfl, rfl, rfl, rfl, rfl, rfl, rfl, rfl⟩⟩

end Verif.Props
