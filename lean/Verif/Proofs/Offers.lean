import Verif.Spec.Offers
import Verif.Proofs.Deliver
import Verif.Proofs.Tls
import Verif.Proofs.Private
import Verif.Props.Base64
import Verif.Props.Auth
/-!
# From the EHLO reply to the mechanism
-/
namespace Verif.Proofs
open Verif Verif.Model Verif.Spec

variable {α : Type} {env : Env}

/-! ### Texts -/

/-- The first text put together from parts of the second, with line feeds between the parts. -/
inductive Woven : Bytes → Bytes → Prop
  | rest (x : Bytes) : Woven [] x
  | keep (c : UInt8) {o t : Bytes} : Woven o t → Woven (c :: o) (c :: t)
  | feed (x : Bytes) {o t : Bytes} : Woven o t → Woven (10 :: o) (x ++ t)

theorem Woven.base (p x : Bytes) : Woven p (p ++ x) := by
  induction p with
  | nil => exact .rest x
  | cons c p ih => exact .keep c ih

theorem Woven.part {o t : Bytes} (h : Woven o t) (p x : Bytes) : Woven (o ++ b!"\n" ++ p) (t ++ (p ++ x)) := by
  induction h with
  | rest y => exact .feed y (.base p x)
  | keep c _ ih => exact .keep c ih
  | feed y _ ih => rw [List.append_assoc y]; exact .feed y ih

theorem Woven.skip {a o t : Bytes} (h : Woven (a ++ o) t) : ∃ a' t', t = a' ++ t' ∧ Woven o t' := by
  induction a generalizing t with
  | nil => exact ⟨[], t, rfl, h⟩
  | cons c a ih =>
    cases h with
    | keep _ h =>
      obtain ⟨a', t', rfl, h'⟩ := ih h
      exact ⟨c :: a', t', rfl, h'⟩
    | feed x h =>
      obtain ⟨a', t', rfl, h'⟩ := ih h
      exact ⟨x ++ a', t', by simp, h'⟩

theorem Woven.word {w o t : Bytes} (hw : 10 ∉ w) (h : Woven (w ++ o) t) : ∃ t', t = w ++ t' ∧ Woven o t' := by
  induction w generalizing t with
  | nil => exact ⟨t, rfl, h⟩
  | cons c w ih =>
    simp only [List.mem_cons, not_or] at hw
    cases h with
    | keep _ h =>
      obtain ⟨t', rfl, h'⟩ := ih hw.2 h
      exact ⟨t', rfl, h'⟩
    | feed x h => exact absurd rfl hw.1

theorem Woven.offers {o t name : Bytes} (h : Woven o t) (hn : 10 ∉ name) (ho : OffersMechanism o name) : OffersMechanism t name := by
  obtain ⟨a, p, b, c, rfl, hp⟩ := ho
  have hpn : 10 ∉ p := by rcases hp with rfl | rfl <;> decide
  simp only [List.append_assoc] at h
  obtain ⟨a', t1, rfl, h1⟩ := h.skip
  obtain ⟨t2, rfl, h2⟩ := h1.word hpn
  obtain ⟨b', t3, rfl, h3⟩ := h2.skip
  obtain ⟨t4, rfl, _⟩ := h3.word (w := 32 :: name) (by simp [hn])
  exact ⟨a', p, b', t4, by simp, hp⟩

theorem mem_intercalate {sep l : Bytes} {ls : List Bytes} (h : l ∈ ls) : ∃ a c, List.intercalate sep ls = a ++ l ++ c := by
  induction ls with
  | nil => cases h
  | cons x ls ih =>
    cases ls with
    | nil =>
      simp only [List.mem_singleton] at h
      subst h
      exact ⟨[], [], by simp [List.intercalate]⟩
    | cons y ls =>
      have e : List.intercalate sep (x :: y :: ls) = x ++ sep ++ List.intercalate sep (y :: ls) := by
        simp [List.intercalate, List.intersperse_cons_cons]
      rw [List.mem_cons] at h
      rcases h with rfl | h
      · exact ⟨[], sep ++ List.intercalate sep (y :: ls), by rw [e]; simp⟩
      · obtain ⟨a, c, h⟩ := ih h
        exact ⟨x ++ sep ++ a, c, by rw [e, h]; simp⟩

theorem line_infix {l s : Bytes} (h : l ∈ lines s) : ∃ a c, s = a ++ l ++ c := by
  obtain ⟨a, c, e⟩ := mem_intercalate (sep := [13, 10]) h
  rw [lines_join] at e
  exact ⟨a, c, e⟩

/-- The names on the wire. -/
def nameOf : Mechanism → Bytes
  | .plain => b!"PLAIN"
  | .login => b!"LOGIN"
  | .xoauth2 => b!"XOAUTH2"

theorem word_offers {l : Bytes} {x : Mechanism} (hl : IsAuthLine l) (hw : HasWord (nameOf x) l) : OffersMechanism l (nameOf x) := by
  obtain ⟨pre, post, rfl, _, hpre, _⟩ := hw
  have key : ∀ p : Bytes, (p = b!"250-AUTH" ∨ p = b!"250 AUTH") → p <+: pre ++ nameOf x ++ post → ∃ b, pre = p ++ b ++ [32] := by
    intro p hp hpf
    rcases hpre with rfl | ⟨q, rfl⟩
    · exfalso
      obtain ⟨t, ht⟩ := hpf
      rcases hp with rfl | rfl <;> cases x <;> simp [nameOf] at ht
    · obtain ⟨t, ht⟩ := hpf
      have hlen : p.length = 8 := by rcases hp with rfl | rfl <;> rfl
      by_cases h8 : 8 ≤ q.length
      · have : p <+: q := by
          refine List.prefix_of_prefix_length_le ⟨t, ht⟩ ⟨[32] ++ nameOf x ++ post, by simp⟩ (by omega)
        obtain ⟨b, rfl⟩ := this
        exact ⟨b, rfl⟩
      · exfalso
        match q, h8 with
        | [], _ | [_], _ | [_, _], _ | [_, _, _], _ | [_, _, _, _], _ | [_, _, _, _, _], _ | [_, _, _, _, _, _], _ | [_, _, _, _, _, _, _], _ =>
          rcases hp with rfl | rfl <;> cases x <;> simp [nameOf] at ht
        | _ :: _ :: _ :: _ :: _ :: _ :: _ :: _ :: _, h => simp at h
  rcases hl with h | h
  · obtain ⟨b, rfl⟩ := key _ (.inl rfl) h
    exact ⟨[], _, b, post, by simp, .inl rfl⟩
  · obtain ⟨b, rfl⟩ := key _ (.inr rfl) h
    exact ⟨[], _, b, post, by simp, .inr rfl⟩

theorem OffersMechanism.infix {t name : Bytes} (h : OffersMechanism t name) (a c : Bytes) : OffersMechanism (a ++ t ++ c) name := by
  obtain ⟨a', p, b, c', rfl, hp⟩ := h
  exact ⟨a ++ a', p, b, c' ++ c, by simp, hp⟩

/-- What is taken from a text was in the text. -/
theorem extract_offers {t : Bytes} {o : AuthOptions} {x : Mechanism} (h : extractAuthOptions (some t) = some o) (hx : Props.Offered o x) :
    OffersMechanism t (nameOf x) := by
  obtain ⟨c, hc⟩ : cstr t <+: t := List.takeWhile_prefix _
  rw [← hc]
  refine OffersMechanism.infix ?_ [] c
  by_cases h2 : 2 ≤ (lines (cstr t)).length
  · rcases extractAuthLoop_spec (cstr t).length (cstr t) none (Nat.le_refl _) (.inl rfl) (fun _ _ => .inr h2) with
      ⟨h', _⟩ | ⟨pre, l, post, hl, ha, _, h'⟩
    · simp only [extractAuthOptions] at h
      rw [h'] at h
      cases h
    · simp only [extractAuthOptions] at h
      rw [h'] at h
      cases h
      have hm := Props.mechanismsOf_optionsOf l
      have hw : HasWord (nameOf x) l := by
        cases x
        · exact hm.1.mp hx
        · exact hm.2.1.mp hx
        · exact hm.2.2.1.mp hx
      obtain ⟨a, c, e⟩ := line_infix (show l ∈ lines (cstr t) by rw [hl]; simp)
      show OffersMechanism (cstr t) _
      rw [e]
      exact OffersMechanism.infix (word_offers ha hw) a c
  · have : lines (cstr t) = [cstr t] := by
      have hj := lines_join (cstr t)
      have hn := lines_ne_nil (cstr t)
      match hls : lines (cstr t) with
      | [] => exact absurd hls hn
      | [y] => rw [hls] at hj; simp [List.intercalate] at hj; rw [hj]
      | _ :: _ :: _ => rw [hls] at h2; simp at h2
    rw [Props.C08_no_crlf t this] at h
    cases h

/-! ### Reading the reply -/

theorem addLog_keeps (i p : Bytes) (s : St) :
    wp env (addLog i p) (fun _ s' => ∃ l, s' = { s with client := { s.client with log := l }, mem := s'.mem }) (fun _ s' => s' = s) s := by
  unfold addLog
  rw [wp_bind, wp_gets]
  split
  · rfl
  · split
    · rfl
    · exact ⟨_, rfl⟩

/-- The result of waiting for a reply: the stored response is the beginning of what was heard. -/
def GotText (s : St) (code : Int) (s' : St) : Prop :=
  ∃ t, Heard t s s' ∧ (code = -1 ∨ ∃ r, s'.client.lastResponse = some r ∧ r <+: t)

theorem cstr_prefix (t : Bytes) : cstr t <+: t := List.takeWhile_prefix _

theorem heard_log {t : Bytes} {s s1 s2 : St} (h : Heard t s s1) {l : Option Log} {m : List SessionOp}
    (h2 : s2 = { s1 with client := { s1.client with log := l }, mem := m }) : Heard t s s2 := by
  subst h2
  obtain ⟨hc, evs, he, hq, ht⟩ := h
  exact ⟨hc.trans rfl, evs, he, hq, ht⟩

theorem getRawReply_text (s : St) : post env getRawReply (fun code s' => GotText s code s') s := by
  unfold getRawReply
  unfold post
  rw [wp_bind]
  refine wp_mono (setNonBlocking_steps (R := Deaf).run s) (fun _ s1 h1 => ?_) (fun _ _ _ => trivial)
  simp only [wp_bind, wp_env]
  refine wp_mono (rawReplyLoop_heard _ _ _ _ s1) ?_ (fun _ _ _ => trivial)
  rintro ⟨w, acc, got⟩ s2 ⟨t, ht, h2⟩
  rw [List.nil_append] at ht
  dsimp only at ht
  subst ht
  have h2 : Heard acc s s2 := h1.then_heard h2
  dsimp only
  refine wp_mono (setBlocking_steps (R := Deaf).run s2) (fun _ s3 h3 => ?_) (fun _ _ _ => trivial)
  have h3 : Heard acc s s3 := h2.then_deaf h3
  simp only [wp_gets, wp_ite, wp_bind, wp_pure]
  refine ⟨fun _ => ?_, fun _ => ⟨acc, h3, .inl rfl⟩⟩
  unfold setLastServerResponse
  rw [wp_modifyMem]
  refine wp_mono (addLog_keeps _ _ _) ?_ (fun _ _ _ => trivial)
  rintro _ s4 ⟨l, e⟩
  refine ⟨acc, ?_, .inr ⟨cstr acc, by rw [e], cstr_prefix acc⟩⟩
  obtain ⟨hc, evs, he, hq, ht⟩ := h3
  rw [e]
  exact ⟨hc.trans rfl, evs, he, hq, ht⟩

theorem getTlsReply_text (s : St) : post env getTlsReply (fun code s' => GotText s code s') s := by
  unfold getTlsReply
  unfold post
  simp only [wp_bind, wp_gets]
  refine wp_mono (waitLoop_heard bioRead_heard _ s) (fun r s1 h => ?_) (fun _ _ _ => trivial)
  split
  · rename_i d
    dsimp only at h
    unfold setLastServerResponse
    rw [wp_bind, wp_modifyMem, wp_bind]
    refine wp_mono (addLog_keeps _ _ _) ?_ (fun _ _ _ => trivial)
    rintro _ s4 ⟨l, e⟩
    refine ⟨_, ?_, .inr ⟨_, by rw [e], (cstr_prefix _).trans (bufferText_prefix d)⟩⟩
    obtain ⟨hc, evs, he, hq, ht⟩ := h
    rw [e]
    exact ⟨hc.trans rfl, evs, he, hq, ht⟩
  · obtain ⟨t, ht⟩ := quiet_heard h
    exact ⟨t, ht, .inl rfl⟩

theorem getServerReply_text (s : St) : post env getServerReply (fun code s' => GotText s code s') s := by
  unfold getServerReply
  unfold post
  simp only [wp_bind, wp_gets, wp_ite]
  exact ⟨fun _ => getRawReply_text s, fun _ => getTlsReply_text s⟩

theorem ehloLoop_woven (tc : Int) (n : Nat) (opts t0 : Bytes) (s0 s : St) (h0 : Heard t0 s0 s) (hw : Woven opts t0)
    (htc : 250 ≠ tc) :
    post env (ehloLoop tc n opts) (fun r s' => r ≠ .inl 250 ∧ ∀ o, r = .inr o → ∃ t, Heard t s0 s' ∧ Woven o t) s := by
  induction n generalizing opts t0 s with
  | zero => trivial
  | succ n ih =>
    unfold ehloLoop
    unfold post
    rw [wp_ite]
    refine ⟨fun _ => ⟨nofun, fun o h => ?_⟩, fun _ => ?_⟩
    · cases h
      exact ⟨t0, h0, hw⟩
    · rw [wp_bind]
      refine post_mono (getServerReply_text s) fun code s1 ⟨t, h1, h2⟩ => ?_
      refine (wp_ite ..).mpr ⟨fun _ => ⟨fun h => htc (Sum.inl.inj h).symm, nofun⟩, fun hc => ?_⟩
      refine (wp_ite ..).mpr ⟨fun h => ⟨fun h' => h (Sum.inl.inj h'), nofun⟩, fun _ => ?_⟩
      obtain ⟨r, hr, x, rfl⟩ := h2.resolve_left hc
      unfold lastResponseText
      rw [wp_bind, wp_bind, wp_gets, hr]
      exact ih (opts ++ b!"\n" ++ r) _ s1 (h0.trans h1) (hw.part r x)

/-! ### The identification -/

/-- The client does not use the raw functions for a TLS connection. -/
def OneWay (c : Client) : Prop := c.ptrRaw = false ∨ c.kind = .smtp

theorem OneWay.same {c c' : Client} (h : OneWay c) (hs : SameConn c c') : OneWay c' := by
  unfold SameConn at hs
  rw [hs]
  exact h

/-- Sent, and this is the text that is stored as the response. -/
def RepliedText (d : Bytes) (s s' : St) : Prop :=
  ∃ n t r, Heard t (St.snoc s (.send .cmd (chan s.client) (cstr d) (.sent n))) s' ∧ s'.client.lastResponse = some r ∧ r <+: t

theorem reply_text {m : M Int} (hm : ∀ s, post env m (fun code s' => GotText s code s') s) (d) (t v : Int) (hv : v ≠ t) (s s1 : St)
    (h1 : Accepted .cmd d s s1) :
    post env (do
        let code ← m
        if code ≠ -1 then pure code
        else do
          cleanup
          pure t : M Int)
      (fun code s' => code = v → RepliedText d s s') s1 := by
  obtain ⟨n, rfl⟩ := h1
  unfold post
  rw [wp_bind]
  refine post_mono (hm _) fun code s2 ⟨u, h2, h3⟩ => ?_
  refine (wp_ite ..).mpr ⟨fun hne _ => ?_, fun _ => ?_⟩
  · obtain ⟨r, hr, hp⟩ := h3.resolve_left hne
    exact ⟨n, u, r, h2, hr, hp⟩
  · rw [wp_bind]
    refine wp_mono (cleanup_after (s := s2) (Ended.refl s2)) (fun _ _ _ h => absurd h.symm hv) (fun _ _ _ => trivial)

theorem sendFb_text (d) (e t v : Int) (he : e ≠ 0) (hve : v ≠ e) (hvt : v ≠ t) (s : St) (hw : OneWay s.client) :
    post env (sendFb d e t) (fun code s' => code = v → RepliedText d s s') s := by
  unfold sendFb
  unfold post
  simp only [wp_bind, wp_gets, wp_ite]
  refine ⟨fun h => ?_, fun h => ?_⟩
  · have hc : chan s.client = .raw s.client.sock := by
      unfold chan
      rw [Bool.or_eq_true] at h
      rcases h with h | h
      · rw [h]; simp
      · rw [Option.isNone_iff_eq_none] at h; rw [h]; split <;> rfl
    unfold sendRawFb
    rw [wp_bind]
    refine wp_mono (sendRaw_out _ _ _ s hc) ?_ (fun _ _ _ => trivial)
    rintro code s1 (⟨rfl, h1⟩ | ⟨rfl, _⟩)
    · rw [wp_ite]
      exact ⟨fun h => absurd rfl h, fun _ => reply_text getRawReply_text d t v hvt s s1 h1⟩
    · rw [wp_ite]
      exact ⟨fun _ h => absurd h.symm hve, fun h => absurd he h⟩
  · simp only [Bool.not_eq_true, Bool.or_eq_false_iff, Option.isNone_eq_false_iff] at h
    have hc : (s.client.ptrRaw || s.client.kind == .smtp) = false := by
      rcases hw with hw | hw
      · rw [hw, h.1]; rfl
      · rw [hw] at h; simp at h
    unfold sendTlsFb
    rw [wp_bind]
    refine wp_mono (sendBio_out _ _ _ s hc) ?_ (fun _ _ _ => trivial)
    rintro code s1 (⟨rfl, h1⟩ | ⟨rfl, _⟩)
    · rw [wp_ite]
      exact ⟨fun h => absurd rfl h, fun _ => reply_text getTlsReply_text d t v hvt s s1 h1⟩
    · rw [wp_ite]
      exact ⟨fun _ h => absurd h.symm hve, fun h => absurd he h⟩

/-- What the client knows after the EHLO. -/
def Identified (s s' : St) : Prop :=
  ∃ n mid, s'.hist = s.hist ++ .send .cmd (chan s.client) ehloCmd (.sent n) :: mid ∧ (∀ e ∈ mid, QuietEv e) ∧
    SameConn s.client s'.client ∧
    ∀ o x, s'.client.authOptions = some o → Props.Offered o x → OffersMechanism (heard mid) (nameOf x)

theorem identify_offer (e t : Int) (he : e ≠ 0) (he' : 250 ≠ e) (ht' : 250 ≠ t) (s : St) (hw : OneWay s.client) :
    post env (identify e t) (fun code s' => code = 250 → Identified s s') s := by
  unfold identify
  unfold post
  rw [wp_bind]
  refine wp_mono (addLog_keeps _ _ s) ?_ (fun _ _ _ => trivial)
  rintro _ s1 ⟨l, e1⟩
  have hsc : SameConn s.client s1.client := by rw [e1]; rfl
  have hh : s1.hist = s.hist := by rw [e1]
  rw [wp_bind]
  refine post_mono (sendFb_text ehloCmd e t 250 he he' ht' s1 (hw.same hsc)) fun code s2 h2 => ?_
  refine (wp_ite ..).mpr ⟨fun hne h => absurd h hne, fun hc => ?_⟩
  obtain ⟨n, t0, r, h3, hr, x, rfl⟩ := h2 (Decidable.not_not.mp hc)
  unfold lastResponseText
  rw [wp_bind, wp_bind, wp_gets, hr]
  simp only [wp_pure, wp_bind, wp_env]
  refine post_mono (ehloLoop_woven t env.fuel r (r ++ x) _ s2 h3 (.base r x) ht') fun res s3 h4 => ?_
  split
  · rename_i c
    intro h
    exact absurd (congrArg _ h) h4.1
  · rename_i o
    obtain ⟨u, ⟨hc', evs, hev, hq, hheard⟩, hwv⟩ := h4.2 o rfl
    unfold setAuthOptions
    rw [wp_bind, wp_modifyMem]
    intro _
    refine ⟨n, evs, ?_, hq, ?_, ?_⟩
    · show s3.hist = _
      rw [hev, St.snoc, hh, chan_same hsc]
      simp [show cstr ehloCmd = ehloCmd from rfl]
    · exact (hsc.trans hc').trans rfl
    · intro o' x' ho hx
      rw [hheard]
      exact hwv.offers (by cases x' <;> decide) (extract_offers ho hx)

/-! ### Everything else -/

/-- Not an AUTH command. -/
def PlainEv : Ev → Prop
  | .send .cmd _ d _ => ¬ b!"AUTH " <+: d
  | _ => True

/-- The texts. -/
def PlainText : SendKind → Bytes → Prop
  | .cmd, d => ¬ b!"AUTH " <+: d
  | _, _ => True

theorem deaf_plain {e : Ev} (h : DeafEv e) : PlainEv e := by cases e <;> first | trivial | exact absurd h id
theorem quiet_plain {e : Ev} (h : QuietEv e) : PlainEv e := by cases e <;> first | trivial | exact absurd h id
theorem prep_plain {e : Ev} (h : PrepEv e) : PlainEv e := by cases e <;> first | trivial | exact absurd h id
theorem end_plain {e : Ev} (h : EndEv e) : PlainEv e := by
  cases e <;> first | trivial | (rename_i k _ _ _; cases k <;> first | trivial | exact absurd h.1 nofun) | exact absurd h id
theorem quiet_interrupts {e : Ev} (h : QuietEv e) : ¬ Interrupts e := by cases e <;> first | exact id | exact absurd h id

/-- No AUTH command since the history was `h0`. -/
def PlainSince (h0 : Hist) (s : St) : Prop := ∃ evs, s.hist = h0 ++ evs ∧ ∀ e ∈ evs, PlainEv e

theorem PlainSince.add {h0 : Hist} {s s' : St} (h : PlainSince h0 s) (h' : NewEvents PlainEv s s') : PlainSince h0 s' := by
  obtain ⟨a, h1, h2⟩ := h
  obtain ⟨b, h3, h4⟩ := h'
  refine ⟨a ++ b, by rw [h3, h1, List.append_assoc], fun e he => ?_⟩
  rcases List.mem_append.mp he with he | he
  · exact h2 e he
  · exact h4 e he

theorem PlainSince.start (s : St) : PlainSince s.hist s := ⟨[], by simp, by simp⟩

theorem plainSince_guard (h0 : Hist) : GuardInv PlainText (PlainSince h0) where
  quitOk := trivial
  client := fun _ _ _ _ h => h
  quiet := fun _ e he h => h.add (.one (deaf_plain he))
  recvRaw := fun _ _ h => h.add (.one trivial)
  recvTls := fun _ _ _ _ h => h.add (.one trivial)
  send := by
    intro s k c d r hs h
    refine h.add (.one ?_)
    cases hs with
    | clear hd _ => cases k <;> first | trivial | exact hd
    | tls hd _ _ => cases k <;> first | trivial | exact hd
    | upgrade hd _ _ => exact hd
  closed := fun s h => h.add ⟨_, rfl, fun e he => end_plain (closing_end _ e he)⟩

/-- … and the configuration of the send functions is still the same. -/
structure Unauth (h0 : Hist) (c : Client) (s : St) : Prop where
  plain : PlainSince h0 s
  kind : s.client.kind = c.kind
  ptrRaw : s.client.ptrRaw = c.ptrRaw
  off : s.client.isConnected = false

theorem unauth_guard (h0 : Hist) (c : Client) : GuardInv PlainText (Unauth h0 c) where
  quitOk := trivial
  client := fun s c' m hc h => by
    unfold SameConn at hc
    exact ⟨(plainSince_guard h0).client s c' m hc h.plain, by rw [hc]; exact h.kind, by rw [hc]; exact h.ptrRaw, by rw [hc]; exact h.off⟩
  quiet := fun s e he h => ⟨(plainSince_guard h0).quiet s e he h.plain, h.kind, h.ptrRaw, h.off⟩
  recvRaw := fun s r h => ⟨(plainSince_guard h0).recvRaw s r h.plain, h.kind, h.ptrRaw, h.off⟩
  recvTls := fun s b r hb h => ⟨(plainSince_guard h0).recvTls s b r hb h.plain, h.kind, h.ptrRaw, h.off⟩
  send := fun s k ch d r hs h => ⟨(plainSince_guard h0).send s k ch d r hs h.plain, h.kind, h.ptrRaw, h.off⟩
  closed := fun s h => ⟨(plainSince_guard h0).closed s h.plain, (closedClient_kind _).trans h.kind, (closedClient_ptrRaw _).trans h.ptrRaw,
    closedClient_isConnected _⟩

theorem Unauth.prep {h0 : Hist} {c : Client} {s s' : St} (h : Unauth h0 c s) (h' : Prep s s') : Unauth h0 c s' := by
  obtain ⟨a, b, d, _, e⟩ := h' h.off
  exact ⟨h.plain.add (e.mono fun _ => prep_plain), b.trans h.kind, d.trans h.ptrRaw, a⟩

theorem Unauth.oneWay {h0 : Hist} {c : Client} {s : St} (h : Unauth h0 c s) (hw : OneWay c) : OneWay s.client := by
  unfold OneWay
  rw [h.kind, h.ptrRaw]
  exact hw

theorem plain_mail (m : Message) : MailTexts PlainText m where
  content := fun _ => trivial
  sender := fun f hf h => by
    have : f.head? = some 77 := by
      simp only [mailFormats, List.mem_cons, List.not_mem_nil, or_false] at hf
      rcases hf with rfl | rfl | rfl <;> rfl
    obtain ⟨y, hy⟩ := h.trans (cstr_prefix f)
    rw [← hy] at this
    simp at this
  rcpt := fun a _ h => by
    obtain ⟨y, hy⟩ := h.trans (cstr_prefix _)
    simp [rcptTo] at hy
  data := fun h => absurd h (by decide)
  done := fun h => absurd h (by decide)

theorem loginLine_plain (t : Bytes) : PlainText .cmd (cstr (authLoginLine t)) := by
  intro h
  obtain ⟨y, hy⟩ := h.trans (cstr_prefix _)
  have h32 : (32 : UInt8) ∈ authLoginLine t := by rw [← hy]; simp
  unfold authLoginLine at h32
  rw [List.mem_append] at h32
  rcases h32 with h32 | h32
  · have := Props.C03_encode_alphabet t 32 h32
    rcases this with this | this | this <;> revert this <;> (first | unfold Spec.Base64.Alphabet | skip) <;> decide
  · simp at h32

/-! ### Authentication -/

/-- An AUTH command for an offered mechanism, or none. -/
def Began (s s' : St) : Prop :=
  PlainSince s.hist s' ∨ ∃ o x d r evs, s.client.authOptions = some o ∧ Props.Offered o x ∧ BeginsAuth d (nameOf x) ∧
    s'.hist = s.hist ++ .send .cmd (chan s.client) d r :: evs ∧ ∀ e ∈ evs, PlainEv e

theorem sendPtrFb_hist (d : Bytes) (s : St) :
    wp env (sendPtrFb d (-81) (-82)) (fun _ s' => ∃ r evs, s'.hist = s.hist ++ .send .cmd (chan s.client) (cstr d) r :: evs ∧ ∀ e ∈ evs, PlainEv e)
      (fun _ s' => ∃ r evs, s'.hist = s.hist ++ .send .cmd (chan s.client) (cstr d) r :: evs ∧ ∀ e ∈ evs, PlainEv e) s := by
  have over : ∀ s', Over d s s' → ∃ r evs, s'.hist = s.hist ++ .send .cmd (chan s.client) (cstr d) r :: evs ∧ ∀ e ∈ evs, PlainEv e := by
    rintro s' ⟨r, _, evs, he, hp⟩
    exact ⟨r, evs, by rw [he]; simp [St.snoc], fun e he => end_plain (hp e he)⟩
  refine wp_mono (sendPtrFb_out d (-81) (-82) s (by decide)) ?_ (fun _ s' h => over s' h)
  rintro code s' (⟨n, t, ⟨_, evs, he, hp, _⟩, _⟩ | ⟨_, _, h⟩)
  · exact ⟨.sent n, evs, by rw [he]; simp [St.snoc], fun e he => quiet_plain (hp e he)⟩
  · exact over s' h

theorem begins {d : Bytes} {s1 s s' : St} {l : Option Log} (e1 : s1 = { s with client := { s.client with log := l }, mem := s1.mem })
    {o : AuthOptions} (ho : s.client.authOptions = some o) {x : Mechanism} (hx : Props.Offered o x) (hd : BeginsAuth (cstr d) (nameOf x))
    (h : ∃ r evs, s'.hist = s1.hist ++ .send .cmd (chan s1.client) (cstr d) r :: evs ∧ ∀ e ∈ evs, PlainEv e) : Began s s' := by
  obtain ⟨r, evs, he, hp⟩ := h
  have hc : chan s1.client = chan s.client := chan_same (by rw [e1]; rfl)
  have hh : s1.hist = s.hist := by rw [e1]
  rw [hc, hh] at he
  exact .inr ⟨o, x, _, r, evs, ho, hx, hd, he, hp⟩

theorem Began.more {s s1 s2 : St} (h : Began s s1) (h' : PlainSince s1.hist s2) : Began s s2 := by
  obtain ⟨b, hb, pb⟩ := h'
  rcases h with ⟨a, ha, pa⟩ | ⟨o, x, d, r, evs, ho, hx, hd, he, hp⟩
  · refine .inl ⟨a ++ b, by rw [hb, ha, List.append_assoc], fun e he => ?_⟩
    rcases List.mem_append.mp he with he | he
    · exact pa e he
    · exact pb e he
  · refine .inr ⟨o, x, d, r, evs ++ b, ho, hx, hd, by rw [hb, he]; simp, fun e he => ?_⟩
    rcases List.mem_append.mp he with he | he
    · exact hp e he
    · exact pb e he

theorem authenticateClient_began (s : St) : wp env authenticateClient (fun _ => Began s) (fun _ => Began s) s := by
  have same : ∀ s', s' = s → Began s s' := fun s' h => by subst h; exact .inl (.start s')
  unfold authenticateClient
  rw [wp_bind, wp_gets]
  cases hc : s.client.credential with
  | none => exact same s rfl
  | some c =>
    dsimp only
    rw [wp_bind, wp_gets]
    cases ho : s.client.authOptions with
    | none => exact same s rfl
    | some o =>
      dsimp only
      obtain ⟨n1, n2, n3⟩ := Props.C42_commands_without_nul c c.username
      simp only [wp_ite]
      refine ⟨fun h => ?_, fun _ => ⟨fun h => ?_, fun _ => ⟨fun h => ?_, fun _ => same s rfl⟩⟩⟩
      · unfold authPlainM
        rw [wp_bind]
        refine wp_mono (addLog_keeps _ _ s) ?_ (fun _ s' h => same s' h)
        rintro _ s1 ⟨l, e1⟩
        simp only [Bool.and_eq_true] at h
        have hd : BeginsAuth (cstr (authPlain c)) (nameOf .plain) := by
          rw [n1]
          exact ⟨32, _, by unfold authPlain; rfl, .inl rfl, by decide, by decide⟩
        exact wp_mono (sendPtrFb_hist _ s1) (fun _ s' h' => begins e1 ho (x := .plain) h.1 hd h') (fun _ s' h' => begins e1 ho (x := .plain) h.1 hd h')
      · unfold authLoginM
        rw [wp_bind]
        refine wp_mono (addLog_keeps _ _ s) ?_ (fun _ s' h => same s' h)
        rintro _ s1 ⟨l, e1⟩
        simp only [Bool.and_eq_true] at h
        have hd : BeginsAuth (cstr b!"AUTH LOGIN\r\n") (nameOf .login) := ⟨13, [10], rfl, .inr rfl, by decide, by decide⟩
        rw [wp_bind]
        refine wp_mono (sendPtrFb_hist _ s1) (fun a s2 h2 => ?_) (fun _ s' h' => begins e1 ho (x := .login) h.1 hd h')
        have h2 := begins e1 ho (x := .login) h.1 hd h2
        have hs : Steps env (Pres (PlainSince s2.hist)) (if a ≠ 334 then pure (-81) else do
            if (← sendPtrFb (authLoginLine c.username) (-81) (-82)) ≠ 334 then pure (-81)
            else sendPtrFb (authLoginLine c.password) (-81) (-82) : M Int) := by
          have hg := (plainSince_guard s2.hist).guarded
          have g1 := gd_sendPtrFb (R := Pres (PlainSince s2.hist)) (env := env) (loginLine_plain c.username) (-81) (-82)
          have g2 := gd_sendPtrFb (R := Pres (PlainSince s2.hist)) (env := env) (loginLine_plain c.password) (-81) (-82)
          have hp : Preord (Pres (PlainSince s2.hist)) := hg.toHarmless.toPreord
          steps []
        exact wp_mono (hs.run s2) (fun _ s3 h3 => h2.more (h3 (.start s2))) (fun _ s3 h3 => h2.more (h3 (.start s2)))
      · unfold authXOAuth2M
        rw [wp_bind]
        refine wp_mono (addLog_keeps _ _ s) ?_ (fun _ s' h => same s' h)
        rintro _ s1 ⟨l, e1⟩
        simp only [Bool.and_eq_true] at h
        have hd : BeginsAuth (cstr (authXOAuth2 c)) (nameOf .xoauth2) := by
          rw [n3]
          exact ⟨32, _, by unfold authXOAuth2; rfl, .inl rfl, by decide, by decide⟩
        exact wp_mono (sendPtrFb_hist _ s1) (fun _ s' h' => begins e1 ho (x := .xoauth2) h.1 hd h') (fun _ s' h' => begins e1 ho (x := .xoauth2) h.1 hd h')

theorem authenticateIfNeeded_began (s : St) : wp env authenticateIfNeeded (fun _ => Began s) (fun _ => Began s) s := by
  unfold authenticateIfNeeded
  rw [wp_bind, wp_gets, wp_ite]
  refine ⟨fun _ => ?_, fun _ => .inl (.start s)⟩
  rw [wp_bind]
  refine wp_mono (authenticateClient_began s) (fun a s' h => ?_) (fun _ _ h => h)
  rw [wp_ite]
  exact ⟨fun _ => h, fun _ => h⟩

/-! ### All together -/

/-- The events since the history was `h0` are in order. -/
def AuthOk (h0 : Hist) (s : St) : Prop := ∃ evs, s.hist = h0 ++ evs ∧ AuthAsOffered evs

theorem plain_asOffered {evs : Hist} (h : ∀ e ∈ evs, PlainEv e) : AuthAsOffered evs := by
  rintro pre ch d r post rfl hd
  exact absurd hd (h (.send .cmd ch d r) (by simp))

theorem PlainSince.ok {h0 : Hist} {s : St} (h : PlainSince h0 s) : AuthOk h0 s := by
  obtain ⟨evs, he, hp⟩ := h
  exact ⟨evs, he, plain_asOffered hp⟩

theorem authAsOffered_append {a b : Hist} (ha : AuthAsOffered a) (hb : AuthAsOffered b) : AuthAsOffered (a ++ b) := by
  intro pre ch d r post h hd
  rcases List.append_eq_append_iff.mp h with ⟨c, rfl, hc⟩ | ⟨c, hc, h2⟩
  · obtain ⟨name, h1, q, n, mid, rfl, h2, h3⟩ := hb c ch d r post hc hd
    exact ⟨name, h1, a ++ q, n, mid, by simp, h2, h3⟩
  · cases c with
    | nil =>
      rw [List.append_nil] at hc
      subst hc
      obtain ⟨name, h1, q, n, mid, e, h2, h3⟩ := hb [] ch d r post (by simpa using h2.symm) hd
      simp at e
    | cons x c =>
      simp only [List.cons_append, List.cons.injEq] at h2
      obtain ⟨rfl, _⟩ := h2
      exact ha pre ch d r c hc hd

theorem AuthOk.more {h0 : Hist} {s s' : St} (h : AuthOk h0 s) (h' : AuthOk s.hist s') : AuthOk h0 s' := by
  obtain ⟨a, ha, pa⟩ := h
  obtain ⟨b, hb, pb⟩ := h'
  exact ⟨a ++ b, by rw [hb, ha, List.append_assoc], authAsOffered_append pa pb⟩

theorem Identified.began {s s1 s2 : St} (h : Identified s s1) (h' : Began s1 s2) : AuthOk s.hist s2 := by
  obtain ⟨n, mid, he, hq, hc, ho⟩ := h
  have hplain : ∀ e ∈ Ev.send .cmd (chan s.client) ehloCmd (.sent n) :: mid, PlainEv e := by
    intro e he
    rcases List.mem_cons.mp he with rfl | he
    · show ¬ _
      decide
    · exact quiet_plain (hq e he)
  rcases h' with h' | ⟨o, x, d, r, evs, ha, hx, hd, he', hp⟩
  · exact PlainSince.ok (PlainSince.add ⟨_, he, hplain⟩ h')
  · refine ⟨(.send .cmd (chan s.client) ehloCmd (.sent n) :: mid) ++ .send .cmd (chan s.client) d r :: evs, ?_, ?_⟩
    · rw [he', he, chan_same hc]; simp
    · intro pre ch d' r' post h hd'
      rcases List.append_eq_append_iff.mp h with ⟨c, hc1, hc2⟩ | ⟨c, hc1, hc2⟩
      · cases c with
        | nil =>
          simp only [List.nil_append, List.cons.injEq, Ev.send.injEq] at hc2
          obtain ⟨⟨_, rfl, rfl, _⟩, _⟩ := hc2
          rw [List.append_nil] at hc1
          exact ⟨nameOf x, hd, [], n, mid, hc1, fun e he => quiet_interrupts (hq e he), ho o x ha hx⟩
        | cons y c =>
          simp only [List.cons_append, List.cons.injEq] at hc2
          exact absurd hd' (hp (.send .cmd ch d' r') (by rw [hc2.2]; simp))
      · cases c with
        | nil =>
          simp only [List.nil_append, List.cons.injEq, Ev.send.injEq] at hc2
          obtain ⟨⟨_, rfl, rfl, _⟩, _⟩ := hc2
          rw [List.append_nil] at hc1
          exact ⟨nameOf x, hd, [], n, mid, hc1.symm, fun e he => quiet_interrupts (hq e he), ho o x ha hx⟩
        | cons y c =>
          simp only [List.cons_append, List.cons.injEq] at hc2
          obtain ⟨rfl, _⟩ := hc2
          exact absurd hd' (hplain (.send .cmd ch d' r') (by rw [hc1]; simp))

/-- A second EHLO or the only one, and then the authentication. -/
theorem identified_auth {m : M Int} {h0 : Hist} {c : Client} {s : St} (hi : Unauth h0 c s)
    (hm : Steps env (Pres (Unauth h0 c)) m) (hid : post env m (fun code s' => code = 250 → Identified s s') s) :
    wp env (do
        let code ← m
        if code ≠ 250 then pure code else authenticateIfNeeded : M Int) (fun _ => AuthOk h0) (fun _ => AuthOk h0) s := by
  rw [wp_bind]
  refine wp_mono (wp_and (hm.run s) hid) (fun code s1 h => ?_) (fun _ s1 h => (h.1 hi).plain.ok)
  refine (wp_ite ..).mpr ⟨fun _ => (h.1 hi).plain.ok, fun hc => ?_⟩
  have h2 := h.2 (Decidable.not_not.mp hc)
  have ok : AuthOk h0 s := hi.plain.ok
  exact wp_mono (authenticateIfNeeded_began s1) (fun _ s2 h3 => ok.more (h2.began h3)) (fun _ s2 h3 => ok.more (h2.began h3))

/-- A step before the authentication. -/
theorem unauth_then {m : M Int} {f : Int → M Int} {h0 : Hist} {c : Client} {s : St} (hi : Unauth h0 c s) (hm : Steps env (Pres (Unauth h0 c)) m)
    (hf : ∀ code s1, Unauth h0 c s1 → wp env (f code) (fun _ => AuthOk h0) (fun _ => AuthOk h0) s1) :
    wp env (m >>= f) (fun _ => AuthOk h0) (fun _ => AuthOk h0) s := by
  rw [wp_bind]
  exact wp_mono (hm.run s) (fun code s1 h => hf code s1 (h hi)) (fun _ s1 h => (h hi).plain.ok)

theorem Steps.unauth {m : M α} (h : Steps env Prep m) (h0 : Hist) (c : Client) : Steps env (Pres (Unauth h0 c)) m :=
  h.mono fun _ _ h hi => hi.prep h

theorem secureIdent_offer (s : St) (hw : OneWay s.client) :
    post env getServerSecureIdentification (fun code s' => code = 250 → Identified s s') s := by
  unfold getServerSecureIdentification
  unfold post
  rw [wp_bind]
  refine wp_mono (addLog_keeps _ _ s) ?_ (fun _ _ _ => trivial)
  rintro _ s1 ⟨l, e1⟩
  have hsc : SameConn s.client s1.client := by rw [e1]; rfl
  have hh : s1.hist = s.hist := by rw [e1]
  refine post_mono (identify_offer (-59) (-60) (by decide) (by decide) (by decide) s1 (hw.same hsc)) fun code s2 h hc => ?_
  obtain ⟨n, mid, he, hq, hc', ho⟩ := h hc
  exact ⟨n, mid, by rw [he, hh, chan_same hsc], hq, hsc.trans hc', ho⟩

theorem secureIdent_unauth (h0 : Hist) (c : Client) : Steps env (Pres (Unauth h0 c)) getServerSecureIdentification := by
  have hg := (unauth_guard h0 c).guarded
  have h1 := gd_identify (R := Pres (Unauth h0 c)) (env := env) (D := PlainText) (by show ¬ _; decide) (-59) (-60)
  unfold getServerSecureIdentification
  steps [addLog_steps]

theorem secureAuth {h0 : Hist} {c : Client} {s : St} (hi : Unauth h0 c s) (hw : OneWay c) :
    wp env (do
        let code ← getServerSecureIdentification
        if code ≠ 250 then pure code else authenticateIfNeeded : M Int) (fun _ => AuthOk h0) (fun _ => AuthOk h0) s :=
  identified_auth hi (secureIdent_unauth h0 c) (secureIdent_offer s (hi.oneWay hw))

theorem establishOpportunistic_auth {h0 : Hist} {c : Client} {s : St} (hi : Unauth h0 c s) (hw : OneWay c) (hk : c.kind = .opportunistic) :
    wp env establishOpportunistic (fun _ => AuthOk h0) (fun _ => AuthOk h0) s := by
  have hg := (unauth_guard h0 c).guarded
  have hp : Preord (Pres (Unauth h0 c)) := hg.toHarmless.toPreord
  have stop : ∀ {s1}, Unauth h0 c s1 → AuthOk h0 s1 := fun h => h.plain.ok
  unfold establishOpportunistic
  rw [wp_bind, wp_gets]
  split
  · exact stop hi
  · rw [wp_bind]
    refine wp_mono (addLog_steps (R := Pres (Unauth h0 c)) _ _ |>.run s) (fun _ s1 h1 => ?_) (fun _ _ h => stop (h hi))
    have h1 := h1 hi
    rw [wp_bind]
    have up : wp env upgradeToSecureConnection (fun _ => Unauth h0 c) (fun _ => Unauth h0 c) s1 := by
      unfold upgradeToSecureConnection
      rw [wp_bind]
      refine wp_mono (addLog_steps (R := Pres (Unauth h0 c)) _ _ |>.run s1) (fun _ s2 h2 => ?_) (fun _ _ h => h h1)
      have h2 := h2 h1
      exact wp_mono (gd_upgrade (D := PlainText) (R := Pres (Unauth h0 c)) (by show ¬ _; decide) trivial (-30) (-31) s2 (h2.kind.trans hk))
        (fun _ _ h => h h2) (fun _ _ h => h h2)
    refine wp_mono up (fun _ s2 h2 => ?_) (fun _ _ h => stop h)
    refine (wp_ite ..).mpr ⟨fun _ => stop h2, fun _ => ?_⟩
    refine unauth_then h2 (startTLSNegotiation_prep.unauth h0 c) fun code s3 h3 => ?_
    exact (wp_ite ..).mpr ⟨fun _ => stop h3, fun _ => secureAuth h3 hw⟩
  · rw [wp_bind]
    refine wp_mono (addLog_steps (R := Pres (Unauth h0 c)) _ _ |>.run s) (fun _ s1 h1 => ?_) (fun _ _ h => stop (h hi))
    have h1 := h1 hi
    obtain ⟨evs, he, hpl⟩ := h1.plain
    exact ⟨evs, he, plain_asOffered hpl⟩

theorem establishForced_auth {h0 : Hist} {c : Client} {s : St} (hi : Unauth h0 c s) (hw : OneWay c) :
    wp env establishForced (fun _ => AuthOk h0) (fun _ => AuthOk h0) s := by
  have hg := (unauth_guard h0 c).guarded
  unfold establishForced
  refine unauth_then hi (startTLSNegotiation_prep.unauth h0 c) fun code s1 h1 => ?_
  refine (wp_ite ..).mpr ⟨fun _ => h1.plain.ok, fun _ => ?_⟩
  refine unauth_then h1 (gd_checkServerGreetings (D := PlainText)) fun code s2 h2 => ?_
  exact (wp_ite ..).mpr ⟨fun _ => h2.plain.ok, fun _ => secureAuth h2 hw⟩

theorem establish_auth (s : St) (hw : OneWay s.client) (hn : s.client.isConnected = false) :
    wp env establish (fun _ => AuthOk s.hist) (fun _ => AuthOk s.hist) s := by
  have hg := (unauth_guard s.hist s.client).guarded
  have hi : Unauth s.hist s.client s := ⟨.start s, rfl, rfl, hn⟩
  unfold establish
  refine unauth_then hi (initializeSession_prep.unauth _ _) fun code s1 h1 => ?_
  refine (wp_ite ..).mpr ⟨fun _ => h1.plain.ok, fun _ => ?_⟩
  rw [wp_bind, wp_gets]
  have ident : Steps env (Pres (Unauth s.hist s.client)) sendServerIdentification :=
    gd_identify (R := Pres (Unauth s.hist s.client)) (D := PlainText) (by show ¬ _; decide) (-20) (-21)
  split
  · unfold establishGreeted
    refine unauth_then h1 (gd_checkServerGreetings (D := PlainText)) fun code s2 h2 => ?_
    refine (wp_ite ..).mpr ⟨fun _ => h2.plain.ok, fun _ => ?_⟩
    exact identified_auth h2 ident (identify_offer _ _ (by decide) (by decide) (by decide) s2 (h2.oneWay hw))
  · rename_i hk
    unfold establishGreeted
    refine unauth_then h1 (gd_checkServerGreetings (D := PlainText)) fun code s2 h2 => ?_
    refine (wp_ite ..).mpr ⟨fun _ => h2.plain.ok, fun _ => ?_⟩
    refine unauth_then h2 ident fun code s3 h3 => ?_
    exact (wp_ite ..).mpr ⟨fun _ => h3.plain.ok, fun _ => establishOpportunistic_auth h3 hw (h1.kind.symm.trans hk)⟩
  · exact establishForced_auth h1 hw

theorem sendMailConnected_auth (m : Message) (s : St) :
    wp env (sendMailConnected m) (fun _ => AuthOk s.hist) (fun _ => AuthOk s.hist) s := by
  have hg := (plainSince_guard s.hist).mail fun _ h => h
  exact wp_mono ((gd_sendMailConnected (R := Pres (PlainSince s.hist)) m (plain_mail m)).run s)
    (fun _ _ h => (h (.start s)).ok) (fun _ _ h => (h (.start s)).ok)

theorem sendMail_auth (m : Message) (s : St) (hw : OneWay s.client) :
    wp env (sendMail m) (fun _ => AuthOk s.hist) (fun _ => AuthOk s.hist) s := by
  unfold sendMail
  rw [wp_bind, wp_gets]
  refine (wp_ite ..).mpr ⟨fun _ => sendMailConnected_auth m s, fun hn => ?_⟩
  rw [wp_bind]
  refine wp_mono (establish_auth s hw (by simpa using hn)) (fun code s1 h1 => ?_) (fun _ _ h => h)
  refine (wp_ite ..).mpr ⟨fun _ => h1, fun _ => ?_⟩
  exact wp_mono (sendMailConnected_auth m s1) (fun _ _ h => h1.more h) (fun _ _ h => h1.more h)

end Verif.Proofs
