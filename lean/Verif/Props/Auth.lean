import Verif.Proofs.First
import Verif.Proofs.Values
import Verif.Props.Base64
import Verif.Spec.Auth
import Verif.Spec.Trace
import Verif.Spec.Script
/-!
# C41, C42: authentication
-/
namespace Verif.Props
open Verif Verif.Model Verif.Spec

/-! ### C42 -/

/-- The commands are passed as C strings; nothing is lost by that. -/
theorem C42_commands_without_nul (c : Credential) (s : Bytes) :
    cstr (authPlain c) = authPlain c ∧ cstr (authLoginLine s) = authLoginLine s ∧ cstr (authXOAuth2 c) = authXOAuth2 c := by
  have key : ∀ t : Bytes, 0 ∉ t → cstr t = t := fun t h => (Proofs.ctext_iff.mp ⟨h, [], by simp, .inl rfl⟩).symm
  have hb : ∀ t, 0 ∉ Base64.encode t := fun t h => C03_encode_no_nul t 0 h rfl
  refine ⟨key _ ?_, key _ ?_, key _ ?_⟩
  · unfold authPlain; simp [hb]
  · unfold authLoginLine; simp [hb]
  · unfold authXOAuth2; simp [hb]

/-- A command made of words without line break and one base64 text: what the server sees. -/
theorem argument_encode (words d : Bytes) (hw : NoBreak words) :
    argument words (words ++ Base64.encode d ++ b!"\r\n") = if d.length < 49152 then some (Base64.encode d) else none := by
  unfold argument
  by_cases h : d.length < 49152
  · have hn := (C03_single_line_iff d).mpr h
    have : lines (words ++ Base64.encode d ++ b!"\r\n") = [words ++ Base64.encode d, []] := by
      rw [Proofs.lines_append_crlf (words ++ Base64.encode d) []]
      · simp [lines]
      · intro c hc
        rcases List.mem_append.mp hc with hc | hc
        · exact (hw c hc).1
        · exact (hn c hc).1
    rw [this]
    simp [h]
  · rw [if_neg h]
    -- the base64 text is broken into lines
    obtain ⟨l, l', ls, hl⟩ : ∃ l l' ls, lines (Base64.encode d) = l :: l' :: ls := by
      cases hls : lines (Base64.encode d) with
      | nil => exact absurd hls (Proofs.lines_ne_nil _)
      | cons l ls =>
        cases ls with
        | nil =>
          exfalso
          have hlen := C03_encode_length d
          have h1 : (Base64.encode d).length ≤ 65536 := by
            have hj := congrArg List.length (Proofs.lines_join (Base64.encode d))
            rw [hls] at hj
            have := C03_encode_line_length d l (by rw [hls]; simp)
            simp [List.intercalate, List.intersperse] at hj
            omega
          omega
        | cons l' ls => exact ⟨l, l', ls, rfl⟩
    obtain ⟨l0, ls0, h0, h1⟩ := Proofs.lines_append_noCR words (Base64.encode d ++ b!"\r\n") (fun c hc => (hw c hc).1)
    rw [List.append_assoc, h1]
    rw [Proofs.lines_append_sep _ [], hl] at h0
    simp only [List.cons_append, List.cons.injEq] at h0
    rw [← h0.2]
    cases ls <;> simp [lines]

theorem splitByte_none {b : UInt8} {s : Bytes} (h : b ∉ s) : splitByte b s = [s] := by
  induction s with
  | nil => rfl
  | cons c s ih =>
    simp only [List.mem_cons, not_or] at h
    rw [splitByte, if_neg (Ne.symm h.1), ih h.2]; rfl

theorem splitByte_sep {b : UInt8} {s : Bytes} (h : b ∉ s) (t : Bytes) : splitByte b (s ++ b :: t) = s :: splitByte b t := by
  induction s with
  | nil => simp [splitByte]
  | cons c s ih =>
    simp only [List.mem_cons, not_or] at h
    rw [List.cons_append, splitByte, if_neg (Ne.symm h.1), ih h.2]; rfl

/-- **C42, partial (PLAIN).** The server reads exactly the user name and password from the one command line, exactly when user
name and password together have fewer than 49150 bytes. (C strings contain no NUL.) Missing: longer ones, for which the command
is broken into several lines (`C42_long_credentials_break_the_line`). -/
theorem C42_plain_partial (c : Credential) (hu : 0 ∉ c.username) (hp : 0 ∉ c.password) :
    (c.username.length + c.password.length < 49150 → readPlain (authPlain c) = some (c.username, c.password)) ∧
    (49150 ≤ c.username.length + c.password.length → readPlain (authPlain c) = none) := by
  unfold readPlain authPlain
  rw [argument_encode _ _ (by unfold NoBreak; decide)]
  constructor
  · intro h
    rw [if_pos (by simp; omega)]
    simp only [Option.bind_some, C01_standard_decoder_inverts_encode]
    have : splitByte 0 ([0] ++ c.username ++ [0] ++ c.password) = [[], c.username, c.password] := by
      rw [List.append_assoc, List.append_assoc]
      simp only [List.singleton_append, splitByte, if_true]
      rw [splitByte_sep hu, splitByte_none hp]
    rw [this]
  · intro h
    rw [if_neg (by simp; omega)]
    rfl

/-- **C42, partial (LOGIN).** Each of the two lines is read as exactly the text it carries, iff that has fewer than 49152
bytes. -/
theorem C42_login_partial (s : Bytes) :
    (s.length < 49152 → readLogin (authLoginLine s) = some s) ∧ (49152 ≤ s.length → readLogin (authLoginLine s) = none) := by
  unfold readLogin authLoginLine
  have := argument_encode [] s (by simp [NoBreak])
  rw [List.nil_append] at this
  rw [this]
  constructor
  · intro h; rw [if_pos h]; exact C01_standard_decoder_inverts_encode s
  · intro h; rw [if_neg (by omega)]; rfl

/-- **C42, partial (XOAUTH2).** The server reads exactly the user name and token when the user name does not contain byte 1 and
the whole has fewer than 49152 bytes. Missing: see `C42_xoauth2_ambiguous`. -/
theorem C42_xoauth2_partial (c : Credential) (hu : 1 ∉ c.username) (h : c.username.length + c.password.length < 49132) :
    readXOAuth2 (authXOAuth2 c) = some (c.username, c.password) := by
  unfold readXOAuth2 authXOAuth2
  rw [argument_encode _ _ (by unfold NoBreak; decide)]
  rw [if_pos (by simp; omega)]
  simp only [Option.bind_some, C01_standard_decoder_inverts_encode]
  have e1 : (b!"user=").isPrefixOf (b!"user=" ++ c.username ++ [1] ++ b!"auth=Bearer " ++ c.password ++ [1, 1]) = true := by
    simp [List.isPrefixOf]
  have e2 : ([1, 1] : Bytes).isSuffixOf (b!"user=" ++ c.username ++ [1] ++ b!"auth=Bearer " ++ c.password ++ [1, 1]) = true := by
    rw [List.isSuffixOf_iff_suffix]; exact List.suffix_append _ _
  rw [if_pos ⟨e1, e2⟩]
  have e3 : (List.drop 5 (b!"user=" ++ c.username ++ [1] ++ b!"auth=Bearer " ++ c.password ++ [1, 1])).take
      ((b!"user=" ++ c.username ++ [1] ++ b!"auth=Bearer " ++ c.password ++ [1, 1]).length - 7) =
      c.username ++ (1 :: (b!"auth=Bearer " ++ c.password)) := by
    simp only [List.append_assoc]
    rw [List.drop_left' (show (b!"user=").length = 5 from rfl)]
    have e : c.username ++ (([1] : Bytes) ++ (b!"auth=Bearer " ++ (c.password ++ [1, 1]))) =
        (c.username ++ (1 :: (b!"auth=Bearer " ++ c.password))) ++ [1, 1] := by simp
    rw [e, List.take_left']
    simp
    omega
  simp only [e3]
  have e4 : (c.username ++ (1 :: (b!"auth=Bearer " ++ c.password))).takeWhile (· ≠ 1) = c.username := by
    rw [List.takeWhile_append_of_pos]
    · simp
    · intro x hx
      simp
      rintro rfl
      exact hu hx
  rw [e4, List.drop_left' rfl, if_pos (by simp [List.isPrefixOf])]
  simp

/-- **C42, refuted** for very long credentials. -/
theorem C42_long_credentials_break_the_line :
    ∃ c : Credential, 0 ∉ c.username ∧ 0 ∉ c.password ∧ readPlain (authPlain c) = none := by
  have h0 : (0 : UInt8) ∉ List.replicate 49150 65 := fun h => absurd (List.eq_of_mem_replicate h) (by decide)
  have h1 : (0 : UInt8) ∉ [65] := by decide
  refine ⟨{ username := [65], password := List.replicate 49150 65 }, h1, h0, ?_⟩
  exact (C42_plain_partial _ h1 h0).2 (by simp only [List.length_replicate]; omega)

/-- **C42, refuted** for XOAUTH2 with control bytes: two different credentials give the same command. -/
theorem C42_xoauth2_ambiguous : ∃ c c' : Credential, c.username ≠ c'.username ∧ authXOAuth2 c = authXOAuth2 c' :=
  ⟨{ username := b!"a", password := b!"b\x01auth=Bearer c" }, { username := b!"a\x01auth=Bearer b", password := b!"c" },
    by decide, by decide +kernel⟩

/-- Non-vacuity: a usual credential. -/
example : authPlain { username := b!"joe", password := b!"p w" } = b!"AUTH PLAIN AGpvZQBwIHc=\r\n" ∧
    readPlain b!"AUTH PLAIN AGpvZQBwIHc=\r\n" = some (b!"joe", b!"p w") ∧
    readXOAuth2 (authXOAuth2 { username := b!"joe", password := b!"tok" }) = some (b!"joe", b!"tok") := by decide +kernel

/-! ### C41 -/

/-- The mechanism is offered by the server. -/
def Offered (o : AuthOptions) : Mechanism → Prop
  | .plain => o.plain = true
  | .login => o.login = true
  | .xoauth2 => o.xoauth2 = true

/-- The user's recommendation permits the mechanism. -/
def Permitted (m : AuthMethod) : Mechanism → Prop
  | .plain => m = .implicit ∨ m = .plain
  | .login => m = .implicit ∨ m = .login
  | .xoauth2 => m = .implicit ∨ m = .xoauth2

/-- `x` is the first usable mechanism in the order PLAIN, LOGIN, XOAUTH2. -/
def FirstUsable (o : AuthOptions) (m : AuthMethod) (x : Mechanism) : Prop :=
  ∃ pre post, [Mechanism.plain, .login, .xoauth2] = pre ++ x :: post ∧ Offered o x ∧ Permitted m x ∧
    ∀ y ∈ pre, ¬ (Offered o y ∧ Permitted m y)

/-- The commands of an exchange, in order. -/
def exchange (c : Credential) : Mechanism → List Bytes
  | .plain => [authPlain c]
  | .login => [b!"AUTH LOGIN\r\n", authLoginLine c.username, authLoginLine c.password]
  | .xoauth2 => [authXOAuth2 c]

theorem exchange_spec (c : Credential) (x : Mechanism) : Exchange c.username c.password x (exchange c x) := by
  cases x
  · exact .plain (C01_standard_decoder_inverts_encode _)
  · exact .login (C01_standard_decoder_inverts_encode _) (C01_standard_decoder_inverts_encode _)
  · exact .xoauth2 (C01_standard_decoder_inverts_encode _)

theorem firstUsable_cases (o : AuthOptions) (m : AuthMethod) :
    (FirstUsable o m .plain ∧ (o.plain && (m == .implicit || m == .plain)) = true) ∨
    (FirstUsable o m .login ∧ (o.plain && (m == .implicit || m == .plain)) = false ∧
      (o.login && (m == .implicit || m == .login)) = true) ∨
    (FirstUsable o m .xoauth2 ∧ (o.plain && (m == .implicit || m == .plain)) = false ∧
      (o.login && (m == .implicit || m == .login)) = false ∧ (o.xoauth2 && (m == .implicit || m == .xoauth2)) = true) ∨
    ((∀ x, ¬ (Offered o x ∧ Permitted m x)) ∧ (o.plain && (m == .implicit || m == .plain)) = false ∧
      (o.login && (m == .implicit || m == .login)) = false ∧ (o.xoauth2 && (m == .implicit || m == .xoauth2)) = false) := by
  by_cases h1 : (o.plain && (m == .implicit || m == .plain)) = true
  · left
    simp at h1
    exact ⟨⟨[], [.login, .xoauth2], rfl, h1.1, h1.2, by simp⟩, by simpa using h1⟩
  · right
    have n1 : ¬ (Offered o .plain ∧ Permitted m .plain) := by simpa [Offered, Permitted] using h1
    by_cases h2 : (o.login && (m == .implicit || m == .login)) = true
    · left
      have h2' : Offered o .login ∧ Permitted m .login := by simpa [Offered, Permitted] using h2
      exact ⟨⟨[.plain], [.xoauth2], rfl, h2'.1, h2'.2, by simpa using n1⟩, by simpa using h1, h2⟩
    · right
      have n2 : ¬ (Offered o .login ∧ Permitted m .login) := by simpa [Offered, Permitted] using h2
      by_cases h3 : (o.xoauth2 && (m == .implicit || m == .xoauth2)) = true
      · left
        have h3' : Offered o .xoauth2 ∧ Permitted m .xoauth2 := by simpa [Offered, Permitted] using h3
        exact ⟨⟨[.plain, .login], [], rfl, h3'.1, h3'.2, fun y hy => by simp at hy; rcases hy with rfl | rfl <;> assumption⟩, by simpa using h1, by simpa using h2, h3⟩
      · right
        have n3 : ¬ (Offered o .xoauth2 ∧ Permitted m .xoauth2) := by simpa [Offered, Permitted] using h3
        refine ⟨?_, by simpa using h1, by simpa using h2, by simpa using h3⟩
        intro x
        cases x <;> assumption

theorem commands_silent {evs : List Ev} (h : ∀ e ∈ evs, Proofs.Allowed (fun _ _ => False) e) : commands evs = [] := by
  rw [commands, List.filterMap_eq_nil_iff]
  intro e he
  have := h e he
  unfold Proofs.Allowed at this
  split at this <;> simp_all

/-- Between the two states exactly these commands were sent. -/
def Sent (l : List Bytes) (s s' : St) : Prop := ∃ evs, s'.hist = s.hist ++ evs ∧ commands evs = l

theorem Sent.trans {l l' : List Bytes} {a b c : St} (h : Sent l a b) (h' : Sent l' b c) : Sent (l ++ l') a c := by
  obtain ⟨x, hx, px⟩ := h
  obtain ⟨y, hy, py⟩ := h'
  exact ⟨x ++ y, by rw [hy, hx, List.append_assoc], by rw [commands, List.filterMap_append, ← commands, ← commands, px, py]⟩

theorem sendPtrFb_sent (env : Env) (d : Bytes) (e t : Int) (s : St) :
    Proofs.wp env (sendPtrFb d e t) (fun _ => Sent [cstr d] s) (fun _ => Sent [cstr d] s) s := by
  obtain ⟨ch, r, h⟩ := Proofs.sendPtrFb_first (env := env) (R := Proofs.NewEvents (Proofs.Allowed (fun _ _ => False))) d e t s
  have key : ∀ s', Proofs.NewEvents (Proofs.Allowed (fun _ _ => False)) (Proofs.St.snoc s (.send .cmd ch (cstr d) r)) s' →
      Sent [cstr d] s s' := by
    rintro s' ⟨evs, he, ha⟩
    refine ⟨.send .cmd ch (cstr d) r :: evs, by rw [he]; simp [Proofs.St.snoc], ?_⟩
    show cstr d :: commands evs = [cstr d]
    rw [commands_silent ha]
  exact Proofs.wp_mono h (fun _ s' => key s') (fun _ s' => key s')

/-- **C41, partial.** When the server offered mechanisms: if no offered mechanism is permitted the result is -84 and nothing at all
happens; otherwise the commands sent are the first or all of the exchange of the first usable mechanism, at least one and in
order. Missing: a server that offers nothing, where the code dereferences a null pointer (`C41_no_offer_crashes`). -/
theorem C41_mechanism_partial (env : Env) (s : St) (c : Credential) (o : AuthOptions) (hc : s.client.credential = some c)
    (ho : s.client.authOptions = some o) (hl : Proofs.HasLog s) :
    ((∀ x, ¬ (Offered o x ∧ Permitted c.method x)) ∧ authenticateClient env s = (.ok (-84), s)) ∨
    (∃ x, FirstUsable o c.method x ∧
      ∃ full l, Exchange c.username c.password x full ∧ l ≠ [] ∧ l <+: full ∧ Sent l s (authenticateClient env s).2) := by
  suffices h : ((∀ x, ¬ (Offered o x ∧ Permitted c.method x)) ∧ authenticateClient env s = (.ok (-84), s)) ∨
      (∃ x, FirstUsable o c.method x ∧ ∃ l, l ≠ [] ∧ l <+: exchange c x ∧ Sent l s (authenticateClient env s).2) by
    rcases h with h | ⟨x, hx, l, h⟩
    · exact .inl h
    · exact .inr ⟨x, hx, exchange c x, l, exchange_spec c x, h⟩
  have toState : ∀ (P : St → Prop) {m : M Int}, Proofs.wp env m (fun _ => P) (fun _ => P) s → P (m env s).2 := by
    intro P m h
    unfold Proofs.wp at h
    split at h <;> (rename_i e; rw [e]; exact h)
  obtain ⟨n1, n2, n3⟩ := C42_commands_without_nul c c.username
  have n4 := (C42_commands_without_nul c c.password).2.1
  have run : authenticateClient env s = (if o.plain && (c.method == .implicit || c.method == .plain) then authPlainM c
      else if o.login && (c.method == .implicit || c.method == .login) then authLoginM c
      else if o.xoauth2 && (c.method == .implicit || c.method == .xoauth2) then authXOAuth2M c
      else pure (-84)) env s := by
    unfold authenticateClient
    rw [Proofs.bind_run, Proofs.gets_run, hc]
    dsimp only
    rw [Proofs.bind_run, Proofs.gets_run, ho]
  rcases firstUsable_cases o c.method with ⟨h, h1⟩ | ⟨h, h1, h2⟩ | ⟨h, h1, h2, h3⟩ | ⟨h, h1, h2, h3⟩
  · refine .inr ⟨_, h, _, List.cons_ne_nil _ _, List.prefix_refl _, ?_⟩
    rw [run, if_pos h1]
    refine toState _ ?_
    unfold authPlainM
    rw [Proofs.wp_bind]
    refine Proofs.wp_addLog hl fun l op _ => ?_
    have := sendPtrFb_sent env (authPlain c) (-81) (-82) { s with client := { s.client with log := some l }, mem := s.mem ++ [op] }
    rw [n1] at this
    exact this
  · refine .inr ⟨_, h, ?_⟩
    rw [run, if_neg (by simp [h1]), if_pos h2]
    refine toState (fun s' => ∃ l, l ≠ [] ∧ l <+: exchange c .login ∧ Sent l s s') ?_
    unfold authLoginM
    rw [Proofs.wp_bind]
    refine Proofs.wp_addLog hl fun lg _ _ => ?_
    have p1 : [b!"AUTH LOGIN\r\n"] <+: exchange c .login := ⟨_, rfl⟩
    have p2 : [b!"AUTH LOGIN\r\n"] ++ [authLoginLine c.username] <+: exchange c .login := ⟨_, rfl⟩
    have p3 : [b!"AUTH LOGIN\r\n"] ++ [authLoginLine c.username] ++ [authLoginLine c.password] <+: exchange c .login := ⟨[], rfl⟩
    rw [Proofs.wp_bind]
    refine Proofs.wp_mono (sendPtrFb_sent env _ _ _ _) (fun a s1 h1 => ?_) (fun _ s1 h1 => ⟨_, List.cons_ne_nil _ _, p1, h1⟩)
    rw [Proofs.wp_ite]
    refine ⟨fun _ => ⟨_, List.cons_ne_nil _ _, p1, h1⟩, fun _ => ?_⟩
    have g2 : ∀ s2, Sent [cstr (authLoginLine c.username)] s1 s2 → Sent ([b!"AUTH LOGIN\r\n"] ++ [authLoginLine c.username]) s s2 := by
      intro s2 h2
      rw [n2] at h2
      exact Sent.trans h1 h2
    rw [Proofs.wp_bind]
    refine Proofs.wp_mono (sendPtrFb_sent env _ _ _ _) (fun a s2 h2 => ?_) (fun _ s2 h2 => ⟨_, by simp, p2, g2 s2 h2⟩)
    rw [Proofs.wp_ite]
    refine ⟨fun _ => ⟨_, by simp, p2, g2 s2 h2⟩, fun _ => ?_⟩
    have g3 : ∀ s3, Sent [cstr (authLoginLine c.password)] s2 s3 →
        Sent ([b!"AUTH LOGIN\r\n"] ++ [authLoginLine c.username] ++ [authLoginLine c.password]) s s3 := by
      intro s3 h3
      rw [n4] at h3
      exact Sent.trans (g2 s2 h2) h3
    exact Proofs.wp_mono (sendPtrFb_sent env _ _ _ _) (fun a s3 h3 => ⟨_, by simp, p3, g3 s3 h3⟩)
      (fun a s3 h3 => ⟨_, by simp, p3, g3 s3 h3⟩)
  · refine .inr ⟨_, h, _, List.cons_ne_nil _ _, List.prefix_refl _, ?_⟩
    rw [run, if_neg (by simp [h1]), if_neg (by simp [h2]), if_pos h3]
    refine toState _ ?_
    unfold authXOAuth2M
    rw [Proofs.wp_bind]
    refine Proofs.wp_addLog hl fun l op _ => ?_
    have := sendPtrFb_sent env (authXOAuth2 c) (-81) (-82) { s with client := { s.client with log := some l }, mem := s.mem ++ [op] }
    rw [n3] at this
    exact this
  · refine .inl ⟨h, ?_⟩
    rw [run, if_neg (by simp [h1]), if_neg (by simp [h2]), if_neg (by simp [h3])]
    rfl

/-- **C41, refuted** for a server that offers no authentication: whatever the environment, the null pointer is dereferenced. -/
theorem C41_no_offer_crashes (env : Env) (s : St) (c : Credential) (hc : s.client.credential = some c)
    (ho : s.client.authOptions = none) : authenticateClient env s = (.stop (.ub .nullDeref), s) := by
  unfold authenticateClient
  rw [Proofs.bind_run, Proofs.gets_run, hc]
  dsimp only
  rw [Proofs.bind_run, Proofs.gets_run, ho]
  rfl

/-- Non-vacuity: against a real dialogue in which the server offers LOGIN and XOAUTH2 the client authenticates with LOGIN (in
clear, it is the plain client); nothing usable gives -84; and a server without AUTH line makes it crash. -/
def withCredential (m : AuthMethod) : St :=
  { fresh .smtp with client := { (fresh .smtp).client with credential := some { username := b!"joe", password := b!"pw", method := m } } }

example :
    (let r := establish (scripted ([.data b!"220 hi\r\n"] ++ clear [b!"250-mail.org\r\n250-AUTH LOGIN XOAUTH2\r\n250 OK\r\n",
        b!"334 u\r\n", b!"334 p\r\n", b!"235 ok\r\n"])) (withCredential .implicit)
     (r.1, commands r.2.hist)) =
      (.ok 0, [b!"ehlo localhost\r\n", b!"AUTH LOGIN\r\n", b!"am9l\r\n", b!"cHc=\r\n"]) := by decide +kernel

example :
    (let r := establish (scripted ([.data b!"220 hi\r\n"] ++ clear [b!"250-mail.org\r\n250-AUTH LOGIN XOAUTH2\r\n250 OK\r\n"]))
      (withCredential .plain)
     (r.1, commands r.2.hist)) = (.ok (-84), [b!"ehlo localhost\r\n"]) := by decide +kernel

/-- **C41, refuted** from a fresh client: a server that does not advertise AUTH. -/
theorem C41_crash_reachable :
    (sendMail mail (scripted ([.data b!"220 hi\r\n"] ++ clear [b!"250-mail.org\r\n250 OK\r\n"])) (withCredential .implicit)).1 =
      .stop (.ub .nullDeref) := by decide +kernel

end Verif.Props
