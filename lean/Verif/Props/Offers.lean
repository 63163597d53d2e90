import Verif.Spec.Offers
import Verif.Spec.Script
import Verif.Proofs.Offers
import Verif.Proofs.Calls
import Verif.Props.Secure
/-!
# C63: the mechanism of an AUTH command was offered on the same channel just before
-/
namespace Verif.Props
open Verif Verif.Model Verif.Spec Verif.Proofs

variable {env : Env}

/-- **C63, partial.** Whatever server and network do, one call of `sendMail` sends an AUTH command only for a mechanism which the server
offered in its reply to the EHLO before, on the same channel; between the EHLO and the AUTH command there is no other command, no new
connection and no TLS negotiation. Missing: a secure client which has switched to the base send commands, where it is false
(`C63_other_channel`). -/
theorem C63_offered_partial (env : Env) (m : Message) (s : St) (hw : s.client.ptrRaw = false ∨ s.client.kind = .smtp) :
    ∃ evs, (sendMail m env s).2.hist = s.hist ++ evs ∧ AuthAsOffered evs :=
  state_of (sendMail_auth (env := env) m s hw)

theorem authOk_snoc {h0 : Hist} {s : St} (h : AuthOk h0 s) {e : Ev} (he : PlainEv e) : AuthOk h0 (St.snoc s e) :=
  h.more (PlainSince.ok (.add (.start s) (.one he)))

theorem cleanup_auth {h0 : Hist} {s : St} (h : AuthOk h0 s) : wp env cleanup (fun _ => AuthOk h0) (fun _ => AuthOk h0) s := by
  haveI := (plainSince_guard s.hist).guarded
  have := (gd_cleanup (D := PlainText) (R := Pres (PlainSince s.hist)) (env := env)).run s
  exact wp_mono this (fun _ _ h' => h.more (h' (.start s)).ok) (fun _ _ h' => h.more (h' (.start s)).ok)

/-- **C63, plain client**: over the whole life of the object, whatever the user calls. -/
theorem C63_plain_client (env : Env) (name : Bytes) (port : Nat) (cs : List Call) :
    AuthAsOffered (life cs env { client := Client.init .smtp name port, hist := [] }).2.hist := by
  have inv : CallInv env (· ∈ cs) (fun s => AuthOk [] s ∧ s.client.kind = .smtp) (AuthOk []) :=
    { stop := fun _ h => h.1
      event := fun s c _ h => ⟨authOk_snoc h.1 trivial, h.2⟩
      serverName := fun s c h => ⟨h.1, h.2⟩
      port := fun s c h => ⟨h.1, h.2⟩
      batch := fun s c h => ⟨h.1, h.2⟩
      timeout := fun s c h => ⟨h.1, h.2⟩
      credential := fun s c h => ⟨h.1, h.2⟩
      keep := fun s b _ h => ⟨h.1, h.2⟩
      accept := fun s b h => ⟨authOk_snoc h.1 trivial, h.2⟩
      sendMail := by
        intro s m hm h
        haveI := kind_anything
        refine wp_mono (wp_and ((sendMail_steps (R := fun s s' : St => s'.client.kind = s.client.kind) m).run s) (sendMail_auth m s (.inr h.2))) ?_ ?_
        · rintro _ s' ⟨h1, h2⟩
          exact ⟨h.1.more h2, h1.trans h.2⟩
        · rintro _ s' ⟨_, h2⟩
          exact h.1.more h2 }
  obtain ⟨evs, he, h⟩ := inv.life (fun s h => cleanup_auth (authOk_snoc h.1 trivial)) cs (fun _ h => h) { client := Client.init .smtp name port, hist := [] }
    ⟨⟨[], rfl, plain_asOffered (by simp)⟩, rfl⟩
  rw [he]
  exact h

theorem clearCmd_any (e : Ev) : ClearCmd (fun _ => True) e := by
  unfold ClearCmd
  split <;> trivial

/-- **C63, forced client**: over the whole life of the object, if the user does not switch to the base send commands. -/
theorem C63_forced_client (env : Env) (name : Bytes) (port : Nat) (cs : List Call) (hk : .setKeepUsingBaseSendCommands true ∉ cs) :
    AuthAsOffered (life cs env { client := Client.init .forced name port, hist := [] }).2.hist := by
  have inv : CallInv env (· ∈ cs) (fun s => AuthOk [] s ∧ s.client.kind = .forced ∧ s.client.ptrRaw = false) (AuthOk []) :=
    { stop := fun _ h => h.1
      event := fun s c _ h => ⟨authOk_snoc h.1 trivial, h.2⟩
      serverName := fun s c h => ⟨h.1, h.2⟩
      port := fun s c h => ⟨h.1, h.2⟩
      batch := fun s c h => ⟨h.1, h.2⟩
      timeout := fun s c h => ⟨h.1, h.2⟩
      credential := fun s c h => ⟨h.1, h.2⟩
      keep := fun s b hb h => ⟨h.1, h.2.1, by cases b with | false => rfl | true => exact absurd hb hk⟩
      accept := fun s b h => ⟨authOk_snoc h.1 trivial, h.2⟩
      sendMail := by
        intro s m hm h
        haveI := kind_anything
        have hp := sendMail_private (env := env) (P := fun _ => True) m (fun _ _ => trivial) s
          ⟨by rw [h.2.1]; decide, h.2.2, fun e _ => clearCmd_any e⟩ (fun s' => s'.client.kind ≠ .opportunistic → s'.client.ptrRaw = false)
          (fun _ h _ => h.ptrRaw) (fun _ h _ h' => absurd h h')
        refine wp_mono (wp_and (wp_and ((sendMail_steps (R := fun s s' : St => s'.client.kind = s.client.kind) m).run s) hp)
          (sendMail_auth m s (.inl h.2.2))) ?_ ?_
        · rintro _ s' ⟨⟨h1, h3⟩, h2⟩
          exact ⟨h.1.more h2, h1.trans h.2.1, h3 (by rw [h1, h.2.1]; decide)⟩
        · rintro _ s' ⟨_, h2⟩
          exact h.1.more h2 }
  obtain ⟨evs, he, h⟩ := inv.life (fun s h => cleanup_auth (authOk_snoc h.1 trivial)) cs (fun _ h => h) { client := Client.init .forced name port, hist := [] }
    ⟨⟨[], rfl, plain_asOffered (by simp)⟩, rfl, rfl⟩
  rw [he]
  exact h

/-! ### The other channel -/

/-- The channel on which the last thing said, without a new connection since then, is an EHLO. -/
def ehloAt (o : Option Chan) : Ev → Option Chan
  | .send .cmd ch d (.sent _) => if d = b!"ehlo localhost\r\n" then some ch else none
  | .send _ _ _ _ => none
  | .socket _ => none
  | .tls _ _ => none
  | _ => o

theorem ehloAt_quiet {mid : Hist} (h : ∀ e ∈ mid, ¬ Interrupts e) (o : Option Chan) : mid.foldl ehloAt o = o := by
  induction mid with
  | nil => rfl
  | cons e mid ih =>
    have he := h e (by simp)
    have : ehloAt o e = o := by cases e <;> first | rfl | exact absurd trivial he
    rw [List.foldl_cons, this]
    exact ih fun e he => h e (by simp [he])

theorem offeredHere_ehloAt {pre : Hist} {ch : Chan} {name : Bytes} (h : OfferedHere pre ch name) : pre.foldl ehloAt none = some ch := by
  obtain ⟨a, n, mid, rfl, hm, _⟩ := h
  rw [List.foldl_append, List.foldl_cons, ehloAt_quiet hm]
  simp [ehloAt]

/-- Somewhere there is an AUTH command without an EHLO on its channel before it. -/
def strayAuth (h : Hist) : Bool :=
  (List.range h.length).any fun k =>
    match h[k]? with
    | some (.send .cmd ch d _) => (b!"AUTH ").isPrefixOf d && (h.take k).foldl ehloAt none != some ch
    | _ => false

theorem strayAuth_refutes {h : Hist} (hs : strayAuth h = true) : ¬ AuthAsOffered h := by
  intro ha
  obtain ⟨k, hk, hm⟩ := List.any_eq_true.mp hs
  split at hm
  · rename_i ch d r e
    rw [Bool.and_eq_true, List.isPrefixOf_iff_prefix] at hm
    obtain ⟨hlt, hget⟩ := List.getElem?_eq_some_iff.mp e
    obtain ⟨name, _, ho⟩ := ha (h.take k) ch d r (h.drop (k + 1))
      (by rw [← hget, List.getElem_cons_drop, List.take_append_drop]) hm.1
    have := offeredHere_ehloAt ho
    simp [this] at hm
  · exact absurd hm (by simp)

/-- **C63 is false for the opportunistic client** after a session without STARTTLS (see `C38_sticky_flag`): the EHLO goes over TLS and
AUTH in clear. -/
theorem C63_other_channel : ∃ env cs, ¬ AuthAsOffered (runCalls cs env (fresh .opportunistic)).2.hist :=
  ⟨scripted stickyScript, [.setCredentials { username := b!"joe", password := b!"secret" }, .sendMail mail, .sendMail mail],
    strayAuth_refutes (by decide +kernel)⟩

/-! ### Non-vacuity -/

/-- In clear and over TLS: the hypothesis is met, the mechanism is chosen among several, AUTH is sent and the mail is accepted. -/
example :
    (let r := runCalls [.setCredentials { username := b!"joe", password := b!"secret", method := .login }, .sendMail mail]
        (scripted ([.data b!"220 hi\r\n"] ++ clear [b!"250-AUTH PLAIN LOGIN\r\n250 ok\r\n", b!"334 u\r\n", b!"334 p\r\n", b!"235 ok\r\n", b!"250 ok\r\n",
          b!"250 ok\r\n", b!"354 go\r\n", b!"250 ok\r\n"])) (fresh .smtp)
     (r.1, r.2.hist.any fun | .send .cmd _ d _ => d == b!"AUTH LOGIN\r\n" | _ => false)) = (.ok [.done, .returned 0], true) ∧
    (let r := runCalls [.setCredentials { username := b!"joe", password := b!"secret" }, .sendMail mail] (scripted
        ([.data b!"220 hi\r\n"] ++ clear [b!"250-STARTTLS\r\n250 ok\r\n", b!"220 go\r\n"] ++
         [.data b!"250-AUTH PLAIN\r\n250 ok\r\n", .data b!"235 ok\r\n", .data b!"250 ok\r\n", .data b!"250 ok\r\n", .data b!"354 go\r\n",
          .data b!"250 ok\r\n"])) (fresh .opportunistic)
     (r.1, r.2.hist.any fun | .send .cmd (.tls _ _) d _ => (b!"AUTH PLAIN ").isPrefixOf d | _ => false)) = (.ok [.done, .returned 0], true) := by
  refine ⟨?_, ?_⟩ <;> decide +kernel

/-- The specification on concrete texts. -/
example : OffersMechanism b!"250-mail.org\r\n250-AUTH PLAIN LOGIN\r\n250 ok\r\n" b!"LOGIN" ∧
    BeginsAuth b!"AUTH LOGIN\r\n" b!"LOGIN" ∧ ¬ BeginsAuth b!"AUTH LOGIN\r\n" b!"LOG" := by
  refine ⟨⟨b!"250-mail.org\r\n", b!"250-AUTH", b!" PLAIN", b!"\r\n250 ok\r\n", by decide, .inl rfl⟩, ⟨13, [10], by decide, .inr rfl, by decide, by decide⟩, ?_⟩
  rintro ⟨c, rest, h, hc, _⟩
  simp only [List.cons_append, List.nil_append, List.cons.injEq] at h
  obtain ⟨_, _, _, _, _, _, _, _, rfl, _⟩ := h
  rcases hc with hc | hc <;> exact absurd hc (by decide)

end Verif.Props
