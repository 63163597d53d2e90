import Verif.Model.Cpp
import Verif.Proofs.Asked
import Verif.Props.Values
import Verif.Spec.Script
/-!
# C21, C22: the C++ API
-/
namespace Verif.Props
open Verif Verif.Model Verif.Spec

/-! ### C21 -/

/-- The address object came out of a constructor. -/
def BuiltAddress (a : MessageAddress) : Prop := ∃ e n, MessageAddress.new e n = .ok a

/-- The attachment object came out of a constructor; its content id may have been set afterwards. -/
def BuiltAttachment (a : Attachment) : Prop :=
  ∃ f n i a0, Attachment.new f n i = .ok a0 ∧ (a = a0 ∨ ∃ p, a0.setContentId p = (.ok (), a))

/-- The array shows exactly the elements of the list, in order. -/
def HoldsElements {α : Type} (a : Arr α) (l : List α) : Prop :=
  a.count = l.length ∧ ∀ i (h : i < l.length), ∃ p, a.ptr = some p ∧ p[i]? = some l[i]

theorem cstr_cstr (m : Bytes) : cstr (cstr m) = cstr m := (Proofs.CText.eq ⟨(Proofs.cstr_ctext m).1, [], by simp, .inl rfl⟩).symm

theorem readCStr_ok {p : Option Bytes} {t : Bytes} (h : readCStr p = .ok t) : readCStr (some t) = .ok t := by
  unfold readCStr at *
  split at h
  · cases h
  · injection h with h; subst h; simp [cstr_cstr]

theorem toStd_address {a : MessageAddress} (h : BuiltAddress a) : a.toStd = .ok a := by
  obtain ⟨e, n, h⟩ := h
  unfold MessageAddress.toStd
  unfold MessageAddress.new at *
  cases he : readCStr e with
  | error x => rw [he] at h; cases h
  | ok email =>
    rw [he] at h
    simp only [bind, Except.bind] at h ⊢
    by_cases h0 : email.length = 0
    · simp [h0] at h
    · rw [if_neg h0] at h
      simp only [pure, Except.pure] at h
      cases ht : trimEmpty email with
      | error x => rw [ht] at h; cases h
      | ok b =>
        rw [ht] at h
        cases b with
        | true => simp at h
        | false =>
          simp only [Bool.false_eq_true, if_false] at h
          by_cases hv : isEmailAddressValid email = true
          · rw [hv] at h
            simp only [Bool.not_true, Bool.false_eq_true, if_false] at h
            cases hn : readCStr n with
            | error x => rw [hn] at h; cases h
            | ok name =>
              rw [hn] at h
              simp only at h
              injection h with h
              subst h
              simp only [readCStr_ok he, readCStr_ok hn, if_neg h0, pure, Except.pure, ht, hv, Bool.not_true, Bool.false_eq_true, if_false]
          · simp [hv] at h

theorem toStd_attachment {a : Attachment} (h : BuiltAttachment a) : a.toStd = .ok a := by
  obtain ⟨f, n, i, a0, h, hset⟩ := h
  -- the content id is a C text in both cases
  have key : a.filename = a0.filename ∧ a.name = a0.name ∧ (readCStr (some a0.contentId) = .ok a0.contentId → readCStr (some a.contentId) = .ok a.contentId) := by
    rcases hset with rfl | ⟨p, hp⟩
    · exact ⟨rfl, rfl, id⟩
    · unfold Attachment.setContentId at hp
      cases hr : readCStr p with
      | error e => rw [hr] at hp; cases hp
      | ok s =>
        rw [hr] at hp
        simp only [Prod.mk.injEq, true_and] at hp
        subst hp
        exact ⟨rfl, rfl, fun _ => readCStr_ok hr⟩
  obtain ⟨k1, k2, k3⟩ := key
  unfold Attachment.toStd
  rw [k1, k2]
  unfold Attachment.new at *
  cases he : readCStr f with
  | error x => rw [he] at h; cases h
  | ok file =>
    rw [he] at h
    simp only [bind, Except.bind] at h ⊢
    by_cases h0 : file.length = 0
    · simp [h0] at h
    · rw [if_neg h0] at h
      simp only [pure, Except.pure] at h
      cases ht : trimEmpty file with
      | error x => rw [ht] at h; cases h
      | ok b =>
        rw [ht] at h
        cases b with
        | true => simp at h
        | false =>
          simp only [Bool.false_eq_true, if_false] at h
          cases hn : readCStr n with
          | error x => rw [hn] at h; cases h
          | ok name =>
            rw [hn] at h
            simp only at h
            cases hi : readCStr i with
            | error x => rw [hi] at h; cases h
            | ok cid =>
              rw [hi] at h
              simp only at h
              injection h with h
              subst h
              simp only [readCStr_ok he, readCStr_ok hn, k3 (readCStr_ok hi), if_neg h0, pure, Except.pure, ht, Bool.false_eq_true, if_false]
              cases a
              simp only at k1 k2
              rw [k1, k2]

theorem stdAddresses_eq {l : List MessageAddress} (h : ∀ a ∈ l, BuiltAddress a) : stdAddresses l = .ok l := by
  induction l with
  | nil => rfl
  | cons a l ih =>
    unfold stdAddresses
    rw [toStd_address (h a (by simp))]
    simp only [ih fun b hb => h b (by simp [hb])]

theorem stdAttachments_eq {l : List Attachment} (h : ∀ a ∈ l, BuiltAttachment a) : stdAttachments l = .ok l := by
  induction l with
  | nil => rfl
  | cons a l ih =>
    unfold stdAttachments
    rw [toStd_attachment (h a (by simp))]
    simp only [ih fun b hb => h b (by simp [hb])]

theorem holds_vectorData {α : Type} (b : Bool) (l : List α) : HoldsElements (Arr.ofArgs (vectorData b l) l.length) l := by
  refine ⟨rfl, fun i h => ?_⟩
  have : l.isEmpty = false := by cases l <;> simp_all
  refine ⟨l, ?_, List.getElem?_eq_getElem h⟩
  simp [vectorData, Arr.ofArgs, this]

/-- **C21.** For every sender, recipients, attachments, subject and body from which a cpp message can be built: building it throws
exactly when there is no To recipient, and otherwise the conversion succeeds and the result has the same sender, the same
recipients and attachments in order, the same MIME type, and the subject and body up to the first NUL; no matter whether an empty
vector has a null array. -/
theorem C21_conversion_keeps_content (b : Bool) (cls : MessageClass) (frm : MessageAddress) (to cc bcc : List MessageAddress)
    (subject body : Bytes) (att : List Attachment) (hf : BuiltAddress frm) (ht : ∀ a ∈ to, BuiltAddress a)
    (hc : ∀ a ∈ cc, BuiltAddress a) (hb : ∀ a ∈ bcc, BuiltAddress a) (ha : ∀ a ∈ att, BuiltAttachment a) :
    (to = [] ∧ CppMessage.new cls frm to subject body cc bcc att = .error .invalidArgument) ∨
    (to ≠ [] ∧ ∃ m r, CppMessage.new cls frm to subject body cc bcc att = .ok m ∧ m.convert b = .ok r ∧
      r.from = frm ∧ HoldsElements r.to to ∧ HoldsElements r.cc cc ∧ HoldsElements r.bcc bcc ∧
      HoldsElements r.attachments att ∧ CText subject r.subject ∧ CText body r.body ∧ r.mime = m.mimeType ∧
      r.mime = match cls with | .plain => b!"text/plain" | .html => b!"text/html") := by
  cases hto : to with
  | nil => exact .inl ⟨rfl, rfl⟩
  | cons a l =>
    rw [← hto]
    have hne : to ≠ [] := by simp [hto]
    refine .inr ⟨hne, { cls := cls, «from» := frm, to := to, subject := subject, body := body, cc := cc, bcc := bcc, attachments := att }, ?_⟩
    refine ⟨Message.new frm (vectorData b to) to.length (some subject) (some body) (vectorData b cc) cc.length (vectorData b bcc) bcc.length
      (vectorData b att) att.length (match cls with | .plain => mimePlain | .html => mimeHtml), ?_, ?_, rfl, holds_vectorData b to,
      holds_vectorData b cc, holds_vectorData b bcc, holds_vectorData b att, Proofs.cstr_ctext _, Proofs.cstr_ctext _, ?_, ?_⟩
    · unfold CppMessage.new
      rw [if_neg (by simpa using hne)]
    · unfold CppMessage.convert
      rw [stdAddresses_eq ht, stdAddresses_eq hc, stdAddresses_eq hb, stdAttachments_eq ha, toStd_address hf]
      rfl
    · cases cls <;> rfl
    · cases cls <;> rfl

/-- Non-vacuity: two recipients, one of them with a display name, no Cc, an attachment with a content id, and a body with a NUL. -/
def ann : MessageAddress := { email := b!"ann@x.org", displayName := b!"Ann" }
def bob : MessageAddress := { email := b!"bob@x.org", displayName := [] }
def pic : Attachment := { filename := b!"/tmp/a.png", name := b!"a", contentId := b!"id1" }

theorem built_ann : BuiltAddress ann := ⟨some b!"ann@x.org", some b!"Ann\x00tail", by rfl⟩
theorem built_bob : BuiltAddress bob := ⟨some b!"bob@x.org", some b!"", by rfl⟩
theorem built_pic : BuiltAttachment pic :=
  ⟨some b!"/tmp/a.png", some b!"a", some b!"", _, rfl, .inr ⟨some b!"id1", rfl⟩⟩

example : (CppMessage.new .html ann [ann, bob] b!"Hi" b!"one\x00two" [] [bob] [pic] >>= CppMessage.convert true) =
    .ok { «from» := ann, to := { ptr := some [ann, bob], count := 2 }, cc := { ptr := none, count := 0 },
          bcc := { ptr := some [bob], count := 1 }, subject := b!"Hi", body := b!"one",
          attachments := { ptr := some [pic], count := 1 }, mime := b!"text/html" } := by rfl

/-! ### C22 -/

/-- The credential object came out of a constructor and setters. -/
def BuiltCredential (c : Credential) : Prop := ∃ u p m c0 ops, Credential.new u p m = .ok c0 ∧ Credential.runCalls ops c0 = .ok c

theorem checkName_ok {p : Option Bytes} {t : Bytes} (h : checkName p = .ok t) : checkName (some t) = .ok t := by
  unfold checkName at *
  cases p with
  | none => cases h
  | some m =>
    simp only [bind, Except.bind] at h ⊢
    by_cases h0 : (cstr m).length = 0
    · simp [h0] at h
    · rw [if_neg h0] at h
      simp only [pure, Except.pure] at h
      cases ht : trimEmpty (cstr m) with
      | error x => rw [ht] at h; cases h
      | ok b =>
        rw [ht] at h
        cases b with
        | true => simp at h
        | false =>
          simp only [Bool.false_eq_true, if_false] at h
          injection h with h
          subst h
          simp only [cstr_cstr, if_neg h0, pure, Except.pure, ht, Bool.false_eq_true, if_false]

theorem checkPassword_ok {p : Option Bytes} {t : Bytes} (h : checkPassword p = .ok t) : checkPassword (some t) = .ok t := by
  unfold checkPassword at *
  cases p with
  | none => cases h
  | some m =>
    simp only at h ⊢
    split at h
    · cases h
    · rename_i h0
      injection h with h
      subst h
      rw [cstr_cstr, if_neg h0]

/-- Both texts of a built credential pass the tests again. -/
theorem built_checks {c : Credential} (h : BuiltCredential c) :
    checkName (some c.username) = .ok c.username ∧ checkPassword (some c.password) = .ok c.password := by
  obtain ⟨u, p, m, c0, ops, h0, h1⟩ := h
  have start : checkName (some c0.username) = .ok c0.username ∧ checkPassword (some c0.password) = .ok c0.password := by
    unfold Credential.new at h0
    cases hu : checkName u with
    | error e => rw [hu] at h0; cases h0
    | ok tu =>
      cases hp : checkPassword p with
      | error e => rw [hu, hp] at h0; cases h0
      | ok tp =>
        rw [hu, hp] at h0
        injection h0 with h0
        subst h0
        exact ⟨checkName_ok hu, checkPassword_ok hp⟩
  clear h0
  induction ops generalizing c0 with
  | nil => simp [Credential.runCalls] at h1; subst h1; exact start
  | cons o ops ih =>
    unfold Credential.runCalls at h1
    cases o with
    | username q =>
      simp only [Credential.doCall, Credential.setUsername] at h1
      cases hq : checkName q with
      | error e =>
        rw [hq] at h1
        cases e with
        | invalidArgument => exact ih c0 h1 start
        | ub x => cases h1
      | ok t => rw [hq] at h1; exact ih _ h1 ⟨checkName_ok hq, start.2⟩
    | password q =>
      simp only [Credential.doCall, Credential.setPassword] at h1
      cases hq : checkPassword q with
      | error e =>
        rw [hq] at h1
        cases e with
        | invalidArgument => exact ih c0 h1 start
        | ub x => cases h1
      | ok t => rw [hq] at h1; exact ih _ h1 ⟨start.1, checkPassword_ok hq⟩
    | method m => exact ih _ h1 start

theorem cppCredential_eq {c : Credential} (k : Kind) (h : BuiltCredential c) :
    cppCredential k c = .ok { c with method := if k = .smtp then .implicit else c.method } := by
  obtain ⟨h1, h2⟩ := built_checks h
  cases k <;> simp only [cppCredential, Credential.new, h1, h2] <;> rfl

/-- The calls hand over credentials that came out of a constructor. -/
def BuiltCalls (cs : List Call) : Prop := ∀ c, Call.setCredentials c ∈ cs → BuiltCredential c

theorem cppLife_eq {k : Kind} (hk : k ≠ .smtp) (cs : List Call) (hc : BuiltCalls cs) : cppLife k cs = life cs := by
  have run : runCppCalls k cs = runCalls cs := by
    induction cs with
    | nil => rfl
    | cons c cs ih =>
      unfold runCppCalls runCalls
      rw [ih fun c h => hc c (by simp [h])]
      have : doCppCall k c = doCall c := by
        cases c with
        | setCredentials c =>
          unfold doCppCall
          simp only [cppCall, cppCredential_eq k (hc c (by simp)), if_neg hk]
        | _ => rfl
      rw [this]
  unfold cppLife life
  rw [run]

/-! ### C76: the cpp clients do what the base clients do -/

/-- The call a user of the base library would have made. Only cpp::SmtpClient differs: it forgets the recommended method. -/
def plainly (k : Kind) : Call → Call
  | .setCredentials c => if k = .smtp then .setCredentials { c with method := .implicit } else .setCredentials c
  | c => c

/-- **C76, partial.** The life of a cpp client is, step by step, result by result and however the world behaves, the life of the base
client on the same calls, except that cpp::SmtpClient forgets the recommended method. Missing: that method (`C76_method_forgotten`). -/
theorem C76_same_life_partial (env : Env) (k : Kind) (cs : List Call) (hc : BuiltCalls cs) (s : St) :
    cppLife k cs env s = life (cs.map (plainly k)) env s := by
  have run : runCppCalls k cs = runCalls (cs.map (plainly k)) := by
    induction cs with
    | nil => rfl
    | cons c cs ih =>
      rw [List.map_cons]
      unfold runCppCalls runCalls
      rw [ih fun c h => hc c (by simp [h])]
      have : doCppCall k c = doCall (plainly k c) := by
        cases c with
        | setCredentials c =>
          unfold doCppCall
          simp only [cppCall, cppCredential_eq k (hc c (by simp)), plainly]
          split <;> rfl
        | _ => rfl
      rw [this]
  unfold cppLife life
  rw [run]

/-- The secure cpp clients do exactly what the base clients do. -/
theorem C76_secure_same_life (env : Env) (k : Kind) (hk : k ≠ .smtp) (cs : List Call) (hc : BuiltCalls cs) (s : St) : cppLife k cs env s = life cs env s := by
  have : ∀ c, plainly k c = c := by intro c; cases c <;> simp [plainly, hk]
  rw [C76_same_life_partial env k cs hc s, funext this, List.map_id']

/-- **C22, partial (the two secure clients).** Through the whole life of a cpp::ForcedSecureSMTPClient or
cpp::OpportunisticSecureSMTPClient, whatever the server does and however the life ends: every command that starts an
authentication uses a mechanism which the recommended method of the credential last given by the user permits. Missing:
cpp::SmtpClient, which loses the method (`C22_method_lost`). -/
theorem C22_secure_clients_partial (env : Env) (k : Kind) (hk : k ≠ .smtp) (cs : List Call) (hc : BuiltCalls cs) (s : St) (hs : s.hist = []) :
    Obeys s.client.credential (cppLife k cs env s).2.hist := by
  rw [cppLife_eq hk cs hc]
  refine (Proofs.life_asking cs s ⟨?_, by rw [hs]; rfl⟩).obeys
  rw [hs]
  intro pre ch d r post x h
  simp at h

/-- The same holds for the clients of the base library, of all three classes. -/
theorem C22_base_clients (env : Env) (cs : List Call) (s : St) (hs : s.hist = []) : Obeys s.client.credential (life cs env s).2.hist := by
  refine (Proofs.life_asking cs s ⟨?_, by rw [hs]; rfl⟩).obeys
  rw [hs]
  intro pre ch d r post x h
  simp at h

/-- What the wrapper hands to the base class: the user name and password always, the method in the secure clients only. -/
theorem C22_handed_over (k : Kind) (c : Credential) (h : BuiltCredential c) :
    ∃ c', cppCall k (.setCredentials c) = .ok (.setCredentials c') ∧ c'.username = c.username ∧ c'.password = c.password ∧
      (k ≠ .smtp → c'.method = c.method) := by
  refine ⟨{ c with method := if k = .smtp then .implicit else c.method }, by simp only [cppCall, cppCredential_eq k h], rfl, rfl, fun hk => by simp [hk]⟩

/-- A server that offers PLAIN and LOGIN. -/
def offersBoth : Env := scripted ([.data b!"220 hi\r\n"] ++ clear [b!"250-mail.org\r\n250-AUTH PLAIN LOGIN\r\n250 OK\r\n", b!"535 no\r\n"])

def joe : Credential := { username := b!"joe", password := b!"pw", method := .login }

theorem built_joe : BuiltCredential joe := ⟨some b!"joe", some b!"pw", .login, _, [], rfl, rfl⟩

/-- **C22, refuted** for cpp::SmtpClient: a credential that recommends LOGIN, against a server that offers both, is used with
PLAIN. -/
theorem C22_method_lost :
    commands (cppLife .smtp [.setCredentials joe, .sendMail mail] offersBoth (fresh .smtp)).2.hist =
      [b!"ehlo localhost\r\n", b!"AUTH PLAIN AGpvZQBwdw==\r\n"] := by decide +kernel

/-- **C76, refuted** in full: the same calls on the base client and on cpp::SmtpClient lead to different commands. -/
theorem C76_method_forgotten : BuiltCalls [.setCredentials joe, .sendMail mail] ∧
    commands (cppLife .smtp [.setCredentials joe, .sendMail mail] offersBoth (fresh .smtp)).2.hist ≠
      commands (life [.setCredentials joe, .sendMail mail] offersBoth (fresh .smtp)).2.hist := by
  refine ⟨?_, by decide +kernel⟩
  intro c h
  simp only [List.mem_cons, Call.setCredentials.injEq, List.not_mem_nil, or_false, reduceCtorEq] at h
  subst h
  exact built_joe

/-- The base class given the same credential uses LOGIN. -/
example : commands (life [.setCredentials joe, .sendMail mail] offersBoth (fresh .smtp)).2.hist =
    [b!"ehlo localhost\r\n", b!"AUTH LOGIN\r\n"] := by decide +kernel

/-- Non-vacuity: a forced client that really authenticates. -/
example : commands (cppLife .forced [.setCredentials joe, .sendMail mail]
    (scripted [.data b!"220 hi\r\n", .data b!"250-mail.org\r\n250-AUTH PLAIN LOGIN\r\n250 OK\r\n", .data b!"334 u\r\n", .data b!"334 p\r\n", .data b!"535 no\r\n"])
    (fresh .forced)).2.hist = [b!"ehlo localhost\r\n", b!"AUTH LOGIN\r\n", b!"am9l\r\n", b!"cHc=\r\n"] := by decide +kernel

end Verif.Props
