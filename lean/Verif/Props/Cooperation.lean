import Verif.Proofs.Cooperation
import Verif.Spec.Script
/-!
# C72: when everything goes well, every mail is sent

The other properties say what a result of 0 means. This one says that there is such a result: in a world in which the operating system
works and the server accepts everything, every `sendMail` returns 0.
-/
namespace Verif.Props
open Verif Verif.Model Verif.Spec Verif.Proofs

/-- **C72** (partial: the greeting and the replies over TLS arrive in one read, the replies in clear in one batch, the server uses the code 250
for recipients and no other positive code, names and numbers are not long enough to fill the buffers of the log, and
`setKeepUsingBaseSendCommands` is not called). For all three clients and every sequence of API calls with arguments in order: the calls and
the destructor end, every `sendMail` returns 0, and no other call fails. -/
theorem C72_every_mail_is_sent_partial (env : Env) (k : Kind) (name : Bytes) (port : Nat) (T : Nat) (starttls : Bool) (C : Credential → Prop)
    (cs : List Call) (hw : Works env) (ha : Accepts env k T starttls C) (hT : T ≤ 5) (hn : name.length ≤ 1000) (hp : decimals port ≤ 10)
    (hc : ∀ c ∈ cs, InOrder T C c) :
    ∃ rs s', life cs env { client := Client.init k name port, hist := [] } = (.ok rs, s') ∧ rs.length = cs.length ∧
      ∀ (i : Nat) (m : Message), cs[i]? = some (.sendMail m) → rs[i]? = some (.returned 0) := by
  have h : Between72 k T starttls C { client := Client.init k name port, hist := [] } :=
    ⟨rfl, hT, ⟨name, rfl, hn⟩, hp, fun _ e => (nomatch e), fun _ e => (nomatch e), .inl ⟨rfl, fun _ => rfl⟩⟩
  obtain ⟨rs, s', e, hl, hf⟩ := runs_iff.mp (life_live hw ha cs hc h)
  refine ⟨rs, s', e, hl, fun i m hi => ?_⟩
  obtain ⟨hi', _⟩ := List.getElem?_eq_some_iff.mp hi
  have hr : rs[i]? = some rs[i] := List.getElem?_eq_getElem (by omega)
  have hz : (cs.zip rs)[i]? = some (.sendMail m, rs[i]) := by
    rw [List.getElem?_zip_eq_some]
    exact ⟨hi, hr⟩
  have := hf _ (List.mem_of_getElem? hz)
  rw [hr]
  exact congrArg some this

/-! ### A server that accepts everything -/

/-- Its reply to EHLO. -/
def welcome (starttls : Bool) : List Bytes :=
  [b!"250-mail.org", b!"250-AUTH PLAIN LOGIN XOAUTH2"] ++ (if starttls then [b!"250-STARTTLS"] else []) ++ [b!"250 SIZE"]

/-- Its reply to a command that is accepted with this code. -/
def assent (starttls : Bool) (n : Nat) (d code : Bytes) : List Bytes :=
  if n = 0 ∧ d = b!"ehlo localhost\r\n" then welcome starttls else [code ++ b!" OK"]

/-- In clear there is nothing more for the moment. -/
def pause : Chan → List RecvRes
  | .raw _ => [.err]
  | .tls _ _ => []

/-- What is on its way to the client. Each text takes a second. -/
def serve (starttls : Bool) (accept : Nat → Bytes → Option Bytes) (p : (Nat × Bool) × List RecvRes) (e : Ev) : (Nat × Bool) × List RecvRes :=
  (dialogueStep p.1 e, match e with
    | .connect _ _ .ok | .sockopt _ (.val 0) | .tls (.verifyResult _) 0 => [.err, .data b!"220 mail.org\r\n"]
    | .send .cmd ch d _ =>
      match accept p.1.1 d with
      | none => []
      | some code => [.err, .data (wire (assent starttls p.1.1 d code))] ++ pause ch
    | .recv _ _ => p.2.tail
    | _ => p.2)

def serving (starttls : Bool) (accept : Nat → Bytes → Option Bytes) (h : Hist) : (Nat × Bool) × List RecvRes :=
  h.foldl (serve starttls accept) ((0, false), [])

/-- The world of that server. -/
def obliging (starttls : Bool) (accept : Nat → Bytes → Option Bytes := acceptance) : Env :=
  { scripted [] with recv := fun h _ => (serving starttls accept h).2.headD .err }

theorem serving_dialogue (st : Bool) (acc : Nat → Bytes → Option Bytes) (h : Hist) (p : (Nat × Bool) × List RecvRes) :
    (h.foldl (serve st acc) p).1 = h.foldl dialogueStep p.1 := by
  induction h generalizing p with
  | nil => rfl
  | cons e h ih => simp only [List.foldl_cons, ih]; rfl

theorem serving_snoc (st : Bool) (acc : Nat → Bytes → Option Bytes) (h : Hist) (e : Ev) :
    serving st acc (h ++ [e]) = serve st acc (serving st acc h) e := by simp [serving]

theorem serving_pause (st : Bool) (acc : Nat → Bytes → Option Bytes) (h e : Hist) (he : ∀ x ∈ e, isPause x = true) :
    (serving st acc (h ++ e)).2 = (serving st acc h).2 := by
  unfold serving
  rw [List.foldl_append]
  generalize h.foldl (serve st acc) ((0, false), []) = p
  induction e generalizing p with
  | nil => rfl
  | cons x e ih =>
    rw [List.foldl_cons, ih (fun y hy => he y (by simp [hy]))]
    have := he x (by simp)
    cases x <;> first | rfl | cases this

/-- What the server has sent is what the client reads. -/
theorem serving_gives (st : Bool) (acc : Nat → Bytes → Option Bytes) (ch : Chan) (rs : List RecvRes) (h : Hist)
    (hr : ∀ r ∈ rs, ∀ b, normRecv b r = r) (hs : (serving st acc h).2 = rs) : Gives (obliging st acc) ch rs h := by
  induction rs generalizing h with
  | nil => trivial
  | cons r rs ih =>
    intro e he
    have hp := serving_pause st acc h e he
    refine ⟨?_, ih _ (fun x hx => hr x (by simp [hx])) ?_⟩
    · unfold answer
      show normRecv _ ((serving st acc (h ++ e)).2.headD .err) = r
      rw [hp, hs]
      exact hr r (by simp) _
    · rw [serving_snoc]
      show (serving st acc (h ++ e)).2.tail = rs
      rw [hp, hs]
      rfl

theorem norm_data {d : Bytes} (h0 : d ≠ []) (h1 : d.length ≤ 1024) (b : Bool) : normRecv b (.data d) = .data d := by
  cases d with
  | nil => exact absurd rfl h0
  | cons c d => simp only [normRecv, List.isEmpty_cons, Bool.false_eq_true, if_false]; rw [List.take_of_length_le h1]

theorem obliging_works (st : Bool) (acc : Nat → Bytes → Option Bytes) : Works (obliging st acc) where
  depth := (by decide : 0 < 10)
  fuel := (by decide : 0 < 50)
  socket _ := ⟨5, rfl, by decide⟩
  resolve _ _ := ⟨_, rfl, by decide⟩
  fcntlGet _ _ := rfl
  fcntlSet _ _ _ := rfl
  connect _ _ _ := .inl rfl
  select _ _ _ := rfl
  sockopt _ _ := rfl
  send _ _ _ := rfl
  tls _ op h := by
    cases op <;> first | exact absurd rfl (h _) | exact (by decide : (0 : Int) < 1)
  certificate _ _ := rfl

/-- The mechanisms that the server and the library know. -/
def common (c : Credential) : Prop := c.method = .implicit ∨ c.method = .plain ∨ c.method = .login ∨ c.method = .xoauth2

theorem acceptance_short {n : Nat} {d code : Bytes} (h : acceptance n d = some code) :
    code = b!"334" ∨ code = b!"235" ∨ code = b!"250" ∨ code = b!"220" ∨ code = b!"354" := by
  unfold acceptance at h
  repeat' split at h
  all_goals first | (cases h; simp; done) | cases h

theorem welcome_login (more st : Bool) (c : Credential) (hc : common c) : OffersLogin more (welcome st) c.method := by
  refine ⟨[b!"250-mail.org"], b!"250-AUTH PLAIN LOGIN XOAUTH2", (if st then [b!"250-STARTTLS"] else []) ++ [b!"250 SIZE"], ?_, ?_, ?_, ?_, ?_⟩
  · simp [welcome]
  · intro x hx
    simp only [List.mem_singleton] at hx
    subst hx
    unfold IsAuthLine
    decide
  · unfold IsAuthLine
    decide
  · rcases hc with h | h | h | h
    · exact .inl ⟨⟨b!"250-AUTH ", b!" LOGIN XOAUTH2", rfl, by decide, .inr ⟨b!"250-AUTH", rfl⟩, .inr ⟨b!"LOGIN XOAUTH2", rfl⟩⟩, .inl h⟩
    · exact .inl ⟨⟨b!"250-AUTH ", b!" LOGIN XOAUTH2", rfl, by decide, .inr ⟨b!"250-AUTH", rfl⟩, .inr ⟨b!"LOGIN XOAUTH2", rfl⟩⟩, .inr h⟩
    · exact .inr (.inl ⟨⟨b!"250-AUTH PLAIN ", b!" XOAUTH2", rfl, by decide, .inr ⟨b!"250-AUTH PLAIN", rfl⟩, .inr ⟨b!"XOAUTH2", rfl⟩⟩, .inr h⟩)
    · exact .inr (.inr ⟨⟨b!"250-AUTH PLAIN LOGIN ", [], rfl, by decide, .inr ⟨b!"250-AUTH PLAIN LOGIN", rfl⟩, .inl rfl⟩, .inr h⟩)
  · simp

theorem obliging_greets (st : Bool) (acc : Nat → Bytes → Option Bytes) (ch : Chan) (h : Hist)
    (hs : (serving st acc h).2 = [.err, .data b!"220 mail.org\r\n"]) : Greets (obliging st acc) 2 ch h := by
  refine ⟨b!"220 mail.org\r\n", _, by decide, by decide, ⟨[.err], ⟨by decide, by decide⟩, rfl⟩, serving_gives st acc ch _ h ?_ hs⟩
  intro r hr b
  simp only [List.cons_append, List.nil_append, List.mem_cons, List.not_mem_nil, or_false] at hr
  rcases hr with rfl | rfl
  · rfl
  · exact norm_data (by decide) (by decide) b

theorem assent_lines (st : Bool) (n : Nat) (d code : Bytes) (h : acceptance n d = some code) : ReplyLines code (assent st n d code) := by
  unfold assent
  split
  · rename_i hd
    obtain ⟨rfl, rfl⟩ := hd
    have e : code = b!"250" := by
      have : acceptance 0 b!"ehlo localhost\r\n" = some b!"250" := by decide
      rw [this] at h
      exact (Option.some.inj h).symm
    subst e
    cases st
    · exact ⟨⟨[b!"250-mail.org", b!"250-AUTH PLAIN LOGIN XOAUTH2"], b!"250 SIZE", rfl, by decide, by decide⟩, by decide⟩
    · exact ⟨⟨[b!"250-mail.org", b!"250-AUTH PLAIN LOGIN XOAUTH2", b!"250-STARTTLS"], b!"250 SIZE", rfl, by decide, by decide⟩, by decide⟩
  · refine ⟨⟨[], code ++ b!" OK", rfl, by simp, ?_⟩, ?_⟩
    · exact List.prefix_append_right_inj code |>.mpr (by decide)
    · rcases acceptance_short h with rfl | rfl | rfl | rfl | rfl <;> decide

theorem assent_short (st : Bool) (n : Nat) (d code : Bytes) (h : acceptance n d = some code) :
    wire (assent st n d code) ≠ [] ∧ (wire (assent st n d code)).length < 1024 := by
  unfold assent
  split
  · cases st <;> decide
  · rcases acceptance_short h with rfl | rfl | rfl | rfl | rfl <;> decide

theorem obliging_accepts (k : Kind) (st : Bool) : Accepts (obliging st) k 2 st common where
  greets _ h fd := ⟨fun port => obliging_greets st _ _ _ (by rw [serving_snoc]; rfl), obliging_greets st _ _ _ (by rw [serving_snoc]; rfl)⟩
  greetsTls _ h id fd := obliging_greets st _ _ _ (by rw [serving_snoc]; rfl)
  answers h ch d code hd _ := by
    have hn : (serving st acceptance h).1 = dialogue h := serving_dialogue st acceptance h _
    obtain ⟨h0, h1⟩ := assent_short st _ d code hd
    have hrs : (serving st acceptance (h ++ [.send .cmd ch d (.sent d.length)])).2 =
        [.err, .data (wire (assent st (dialogue h).1 d code))] ++ pause ch := by
      rw [serving_snoc]
      simp only [serve, hn, hd]
    refine ⟨assent st (dialogue h).1 d code, _, assent_lines st _ d code hd, ?_, ?_, ?_, serving_gives st acceptance ch _ _ ?_ hrs⟩
    · intro hz he
      unfold assent
      rw [if_pos ⟨hz, he⟩]
      cases ch with
      | raw fd =>
        refine ⟨?_, ?_, fun _ c hc => welcome_login _ st c hc⟩
        · cases st <;> decide
        · cases st
          · refine ⟨fun ho => ?_, fun e => nomatch e⟩
            have := findSub_occurs ho
            revert this
            decide
          · exact ⟨fun _ => rfl, fun _ => ⟨b!"250-mail.org\r\n250-AUTH PLAIN LOGIN XOAUTH2\r\n", b!"\r\n250 SIZE\r\n", by decide⟩⟩
      | tls id fd => exact fun c hc => welcome_login _ st c hc
    · cases ch with
      | raw fd => exact ⟨[.err], [wire (assent st (dialogue h).1 d code)], ⟨by decide, by decide⟩, by simp, by simpa using h1, by simp, rfl⟩
      | tls id fd => exact ⟨[.err], ⟨by decide, by decide⟩, rfl⟩
    · cases ch
      · exact (by decide : 3 ≤ 50)
      · exact (by decide : 2 ≤ 50)
    · intro r hr b
      rw [List.mem_append] at hr
      rcases hr with hr | hr
      · simp only [List.mem_cons, List.not_mem_nil, or_false] at hr
        rcases hr with rfl | rfl
        · rfl
        · exact norm_data h0 (Nat.le_of_lt h1) b
      · cases ch with
        | raw fd =>
          have : r = .err := List.mem_singleton.mp hr
          subst this
          rfl
        | tls id fd => cases hr

/-- Two mails in one session, a login, a change of the server, and a mail in a session of its own. -/
def busyDay : List Call :=
  [.setCredentials { username := b!"joe", password := b!"pw", method := .implicit }, .setBatchMode true, .sendMail mail, .sendMail bigMail,
    .setServerName (some b!"other.org"), .setServerName none, .setBatchMode false, .sendMail bigMail,
    .setCredentials { username := b!"joe", password := b!"pw", method := .login }, .sendMail mail]

example (k : Kind) (starttls : Bool) :
    ∃ rs s', life busyDay (obliging starttls) { client := Client.init k b!"mail.org" 25, hist := [] } = (.ok rs, s') ∧ rs.length = 10 ∧
      rs[2]? = some (.returned 0) ∧ rs[3]? = some (.returned 0) ∧ rs[7]? = some (.returned 0) ∧ rs[9]? = some (.returned 0) := by
  have hm : MessageOk mail := ⟨(by decide : 1 ≤ 1), rfl, rfl, rfl⟩
  have hb : MessageOk bigMail := ⟨(by decide : 2 ≤ 2), (by decide : 1 ≤ 1), (by decide : 1 ≤ 1), (by decide : 1 ≤ 1)⟩
  obtain ⟨rs, s', h, hl, hf⟩ := C72_every_mail_is_sent_partial (obliging starttls) k b!"mail.org" 25 2 starttls common busyDay
    (obliging_works _ _) (obliging_accepts _ _) (by decide) (by decide) (by decide) (by
      intro c hc
      simp only [busyDay, List.mem_cons, List.not_mem_nil, or_false] at hc
      rcases hc with rfl | rfl | rfl | rfl | rfl | rfl | rfl | rfl | rfl | rfl
      · exact .inl rfl
      · trivial
      · exact hm
      · exact hb
      · intro n e
        cases e
        decide
      · intro n e
        cases e
      · trivial
      · exact hb
      · exact .inr (.inr (.inl rfl))
      · exact hm)
  exact ⟨rs, s', h, hl, hf 2 mail rfl, hf 3 bigMail rfl, hf 7 bigMail rfl, hf 9 mail rfl⟩

/-! ### What is missing -/

/-- A server that will forward the mail (RFC 5321 section 4.2.3: `251 User not local; will forward`). -/
def forwarding (n : Nat) (d : Bytes) : Option Bytes :=
  if n = 0 ∧ b!"RCPT TO:".isPrefixOf d then some b!"251" else acceptance n d

/-- **C72, refuted** for a server that accepts the recipient with the positive code 251: `sendMail` gives up and returns 251. With 250 the same run returns 0. -/
theorem C72_will_forward :
    (sendMail mail (obliging false forwarding) (fresh .smtp)).1 = .ok 251 ∧ (sendMail mail (obliging false) (fresh .smtp)).1 = .ok 0 := by
  refine ⟨?_, ?_⟩ <;> decide +kernel

end Verif.Props
