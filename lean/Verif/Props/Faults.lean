import Verif.Proofs.Faults
import Verif.Proofs.Ownership
import Verif.Props.Sockets
import Verif.Props.Auth
import Verif.Model.Cpp
/-!
# C49: which servers can make the client run into undefined behaviour
-/
namespace Verif.Props
open Verif Verif.Model Verif.Spec Verif.Proofs

/-! ### Any number of objects -/

/-- Every object is ready for the next call. -/
def AllReady (w : Objects) : Prop := ∀ i c, w.get i = some c → Ready { client := c, hist := w.hist }

theorem ready_ext {c : Client} {h e : Hist} (x : Ready { client := c, hist := h }) : Ready { client := c, hist := h ++ e } :=
  ⟨x.log, fun t ht k hk => received_append (x.echo t ht k hk)⟩

/-- What can be the matter when a program stops with undefined behaviour: one of the known causes in one of its objects, or a constructor was
given a server name with a byte outside ASCII. -/
def Explained (ops : List ObjOp) (w : Objects) (u : UB) : Prop :=
  (∃ i c, w.get i = some c ∧ Fault { client := c, hist := w.hist } u) ∨
  (u = .isspaceDomain ∧ ∃ k m port, .create k (some m) port ∈ ops ∧ ∃ c ∈ m, 128 ≤ c)

/-- The messages in the calls are well-formed. -/
def ProgramOk (ops : List ObjOp) : Prop := ∀ i c, .call i c ∈ ops → CallOk c

theorem new_ready {k : Kind} {p : Option Bytes} {port : Nat} {c : Client} {h : Hist} (e : Client.new k p port = .ok c) : Ready { client := c, hist := h } := by
  unfold Client.new at e
  split at e
  · cases e
  · injection e with e
    subst e
    exact ⟨nofun, nofun⟩

theorem copied_ready {c c' : Client} {h : Hist} (e : c.copied = .ok c') (hr : Ready { client := c, hist := h }) : Ready { client := c', hist := h } := by
  unfold Client.copied at e
  split at e
  · cases e
  · injection e with e
    subst e
    exact ⟨nofun, hr.echo⟩

theorem copied_error {c : Client} {u : UB} (e : c.copied = .error u) : u = .nullDeref ∧ c.serverName = none := by
  unfold Client.copied at e
  split at e
  · cases e
    exact ⟨rfl, by assumption⟩
  · cases e

theorem get_set_self {l : List (Option Client)} {h : Hist} {i : Nat} {x : Client} (hi : i < l.length) :
    (Objects.mk (l.set i (some x)) h).get i = some x := by
  unfold Objects.get
  simp [hi]

theorem fault_mem {s : St} {u : UB} (h : Fault s u) : Fault { client := s.client, hist := s.hist } u := by
  cases h with
  | longRead fd d last len => exact .longRead fd d last len
  | noMechanisms c cred none => exact .noMechanisms c cred none
  | longName name r h len last => exact .longName name r h len last
  | highDescriptor p high last => exact .highDescriptor p high last
  | longAddress name a len last => exact .longAddress name a len last
  | strangeReply c kind sent high => exact .strangeReply c kind sent high
  | strangeName m last c mem high => exact .strangeName m last c mem high
  | noName h => exact .noName h

/-- One operation keeps all objects ready; undefined behaviour is explained. -/
theorem objStep_ready (env : Env) (op : ObjOp) (hop : ∀ i c, op = .call i c → CallOk c) {w : Objects} (h : AllReady w) :
    match objStep op env w with
    | (.ok _, w') => AllReady w'
    | (.stop e, w') => ∀ u, e = .ub u → Explained [op] w' u := by
  cases op with
  | create k name port =>
    simp only [objStep]
    cases hn : Client.new k name port with
    | ok c =>
      intro i d hd
      rcases Objects.get_append w c i d hd with hd | ⟨_, rfl⟩
      · exact h i d hd
      · exact new_ready hn
    | error e =>
      cases e with
      | invalidArgument => exact h
      | ub u =>
        intro u' hu
        cases hu
        unfold Client.new at hn
        split at hn
        · next e' he =>
          cases hn
          obtain ⟨rfl, m, rfl, hm⟩ := checkName_error_high he
          exact .inr ⟨rfl, k, m, port, by simp, hm⟩
        · cases hn
  | copy i =>
    simp only [objStep]
    cases hi : w.get i with
    | none => exact h
    | some c =>
      simp only
      cases hc : c.copied with
      | error u =>
        intro u' hu
        cases hu
        obtain ⟨rfl, hn⟩ := copied_error hc
        exact .inl ⟨i, c, hi, .noName hn⟩
      | ok c' =>
        intro j d hd
        rcases Objects.get_append w c' j d hd with hd | ⟨_, rfl⟩
        · exact h j d hd
        · exact copied_ready hc (h i c hi)
  | move i =>
    simp only [objStep]
    cases hi : w.get i with
    | none => exact h
    | some c =>
      intro j d hd
      rcases Objects.get_append { w with clients := w.clients.set i (some c.movedFrom) } c.moved j d hd with hd | ⟨_, rfl⟩
      · rcases get_set w.clients w.hist i j _ d hd with ⟨_, hx⟩ | ⟨_, hd⟩
        · cases hx
          exact ⟨nofun, nofun⟩
        · exact h j d hd
      · exact ⟨(h i c hi).log, (h i c hi).echo⟩
  | assign i j =>
    simp only [objStep]
    cases hi : w.get i with
    | none => exact h
    | some d =>
      cases hj : w.get j with
      | none => exact h
      | some c =>
        simp only
        by_cases hs : i = j ∨ d.kind ≠ c.kind
        · rw [if_pos hs]; exact h
        · rw [if_neg hs]
          cases hc : c.copied with
          | error u =>
            intro u' hu
            cases hu
            obtain ⟨rfl, hn⟩ := copied_error hc
            exact .inl ⟨j, c, hj, .noName hn⟩
          | ok c' =>
            intro k e hk
            rcases get_set w.clients w.hist i k _ e hk with ⟨_, hx⟩ | ⟨_, hk⟩
            · cases hx
              exact copied_ready hc (h j c hj)
            · exact h k e hk
  | moveAssign i j =>
    simp only [objStep]
    cases hi : w.get i with
    | none => exact h
    | some d =>
      cases hj : w.get j with
      | none => exact h
      | some c =>
        simp only
        by_cases hs : i = j ∨ d.kind ≠ c.kind
        · rw [if_pos hs]; exact h
        · rw [if_neg hs]
          intro k e hk
          rcases get_set _ w.hist j k _ e hk with ⟨_, hx⟩ | ⟨_, hk⟩
          · cases hx
            exact ⟨nofun, nofun⟩
          · rcases get_set _ w.hist i k _ e hk with ⟨_, hx⟩ | ⟨_, hk⟩
            · cases hx
              exact ⟨(h j c hj).log, (h j c hj).echo⟩
            · exact h k e hk
  | call i c =>
    simp only [objStep]
    cases hi : w.get i with
    | none => exact h
    | some cl =>
      simp only
      have hr := doCall_ready (env := env) c (hop i c rfl) _ (h i cl hi)
      obtain ⟨e, he⟩ := (doCall_steps (env := env) (R := Ext) c).state { client := cl, hist := w.hist }
      unfold wp at hr
      cases hd : doCall c env { client := cl, hist := w.hist } with
      | mk r s =>
        rw [hd] at hr he
        cases r with
        | ok a =>
          intro j d hj
          rcases get_set w.clients s.hist i j _ d hj with ⟨_, hx⟩ | ⟨_, hj⟩
          · cases hx
            have hr : Ready s := hr
            exact ⟨hr.log, hr.echo⟩
          · have := h j d hj
            show Ready { client := d, hist := s.hist }
            rw [he]
            exact ready_ext this
        | stop e' =>
          intro u hu
          exact .inl ⟨i, s.client, get_set_self (get_length hi), fault_mem (hr u hu)⟩
  | destroy i =>
    simp only [objStep]
    cases hi : w.get i with
    | none => exact h
    | some cl =>
      simp only
      have hr := destroy_ready (env := env) _ (h i cl hi)
      obtain ⟨e, he⟩ := (destroy_steps (env := env) (R := Ext)).state { client := cl, hist := w.hist }
      unfold wp at hr
      cases hd : Model.destroy env { client := cl, hist := w.hist } with
      | mk r s =>
        rw [hd] at hr he
        cases r with
        | ok a =>
          intro j d hj
          rcases get_set w.clients s.hist i j _ d hj with ⟨_, hx⟩ | ⟨_, hj⟩
          · cases hx
          · have := h j d hj
            show Ready { client := d, hist := s.hist }
            rw [he]
            exact ready_ext this
        | stop e' =>
          intro u hu
          exact .inl ⟨i, s.client, get_set_self (get_length hi), fault_mem (hr u hu)⟩

theorem explained_cons {op : ObjOp} {ops : List ObjOp} {w : Objects} {u : UB} (h : Explained ops w u) : Explained (op :: ops) w u := by
  rcases h with h | ⟨rfl, k, m, port, hm, hc⟩
  · exact .inl h
  · exact .inr ⟨rfl, k, m, port, List.mem_cons_of_mem _ hm, hc⟩

theorem explained_one {op : ObjOp} {ops : List ObjOp} {w : Objects} {u : UB} (h : Explained [op] w u) : Explained (op :: ops) w u := by
  rcases h with h | ⟨rfl, k, m, port, hm, hc⟩
  · exact .inl h
  · rw [List.mem_singleton] at hm
    exact .inr ⟨rfl, k, m, port, by rw [hm]; exact List.mem_cons_self, hc⟩

theorem objRun_explained (env : Env) (ops : List ObjOp) (hops : ProgramOk ops) {w : Objects} (h : AllReady w) (u : UB)
    (hu : (objRun ops env w).1 = .stop (.ub u)) : Explained ops (objRun ops env w).2 u := by
  induction ops generalizing w with
  | nil => cases hu
  | cons op ops ih =>
    have h1 := objStep_ready env op (fun i c e => hops i c (by rw [e]; exact List.mem_cons_self)) h
    unfold objRun at hu ⊢
    cases hr : objStep op env w with
    | mk r w' =>
      rw [hr] at h1 hu
      cases r with
      | ok a => exact explained_cons (ih (fun i c e => hops i c (List.mem_cons_of_mem _ e)) h1 hu)
      | stop e =>
        simp only at hu ⊢
        cases hu
        exact explained_one (h1 u rfl)

/-- **C49, partial.** In every program with any number of client objects that are created, copied, moved, assigned, used and destroyed, and in
every world: undefined behaviour has one of eight causes (`Fault`): the server sends 1024 bytes at once in clear, no AUTH line is understood although
there are credentials, a server name of about 1000 characters with TLS, a descriptor of 1024 or more, a resolver that answers with more than four bytes, a byte outside ASCII in the reply to EHLO of an
opportunistic client, a byte outside ASCII in a server name given by the user, an object that was moved from. Missing for the full property: these
causes. -/
theorem C49_causes_partial (env : Env) (ops : List ObjOp) (hops : ProgramOk ops) (u : UB) (w : Objects)
    (h : objRun ops env .empty = (.stop (.ub u), w)) : Explained ops w u := by
  have := objRun_explained env ops hops (w := .empty) (fun i c hi => by simp [Objects.empty, Objects.get] at hi) u (by rw [h])
  rw [h] at this
  exact this

/-! ### One object -/

theorem runCalls_ready (env : Env) (cs : List Call) (hcs : ∀ c ∈ cs, CallOk c) (s : St) (hs : Ready s) :
    wp env (runCalls cs) (fun _ => Ready) Blamed s := by
  induction cs generalizing s with
  | nil => exact hs
  | cons c cs ih =>
    unfold runCalls
    rw [wp_bind]
    refine wp_mono (doCall_ready c (hcs c (by simp)) s hs) (fun r s1 h1 => ?_) (fun _ _ h => h)
    rw [wp_bind]
    exact wp_mono (ih (fun c hc => hcs c (by simp [hc])) s1 h1) (fun _ _ h => h) (fun _ _ h => h)

/-- There is a server name. -/
def Named (s : St) : Prop := s.client.serverName ≠ none

/-- The server name stays. -/
theorem name_anything : Anything (fun s s' : St => s'.client.serverName = s.client.serverName) where
  refl := fun _ => rfl
  trans := fun h h' => Eq.trans h' h
  log := fun _ _ _ _ _ _ _ => rfl
  errno := fun _ _ => rfl
  resp := fun _ _ => rfl
  auth := fun _ _ => rfl
  fcntlGet := fun _ _ _ => rfl
  fcntlSet := fun _ _ _ _ => rfl
  select := fun _ _ _ => rfl
  sockopt := fun _ _ _ => rfl
  resolve := fun _ _ _ => rfl
  connect := fun _ _ _ _ => rfl
  readFile := fun _ _ _ => rfl
  sleep := fun _ => rfl
  recv := fun _ _ _ => rfl
  disconnected := fun _ => rfl
  ctx := fun _ _ => rfl
  noBio := fun _ => rfl
  noSock := fun _ => rfl
  close := fun _ _ => rfl
  bioFree := fun _ _ => rfl
  quit := fun _ _ _ => rfl
  send := fun _ _ _ _ _ => rfl
  connected := fun _ => rfl
  freshLog := fun _ => rfl
  keep := fun _ => rfl
  bio := fun _ _ => rfl
  sock := fun _ _ => rfl
  socket := fun _ _ => rfl
  tls := fun _ _ _ => rfl

theorem doCall_named (env : Env) (c : Call) (s : St) (hs : Named s) : Named (doCall c env s).2 := by
  have key : wp env (doCall c) (fun _ => Named) (fun _ => Named) s := by
    unfold doCall
    rw [wp_bind, wp_emit]
    cases c with
    | sendMail m =>
      simp only
      rw [wp_bind]
      haveI := name_anything
      refine wp_mono ((sendMail_steps (env := env) (R := fun s s' : St => s'.client.serverName = s.client.serverName) m).run _)
        (fun _ s' h => ?_) (fun _ s' h => ?_) <;>
      · show Named s'
        unfold Named
        rw [h]
        exact hs
    | setServerName p =>
      simp only
      unfold setServerName
      cases checkName p with
      | ok n => exact nofun
      | error e => cases e <;> exact hs
    | setServerPort n => exact hs
    | setBatchMode n => exact hs
    | setCommandTimeout n => exact hs
    | setCredentials n => exact hs
    | setKeepUsingBaseSendCommands n => exact hs
    | setAcceptSelfSignedCert n => exact hs
  unfold wp at key
  split at key <;> (rename_i e; rw [e]; exact key)

theorem runCalls_named (env : Env) (cs : List Call) (s : St) (hs : Named s) : Named (runCalls cs env s).2 := by
  induction cs generalizing s with
  | nil => exact hs
  | cons c cs ih =>
    have h1 := doCall_named env c s hs
    unfold runCalls
    rw [bind_run]
    cases hd : doCall c env s with
    | mk r s1 =>
      rw [hd] at h1
      cases r with
      | stop e => exact h1
      | ok a =>
        simp only
        rw [bind_run]
        have h2 := ih s1 h1
        cases hr : runCalls cs env s1 with
        | mk r2 s2 =>
          rw [hr] at h2
          cases r2 <;> exact h2

/-- **C49, partial.** The whole life of one object, which is never moved from: the same causes without the last. -/
theorem C49_one_object_partial (env : Env) (k : Kind) (name : Bytes) (port : Nat) (cs : List Call) (hcs : ∀ c ∈ cs, CallOk c) (u : UB) (s : St)
    (h : life cs env { client := .init k name port, hist := [] } = (.stop (.ub u), s)) : Fault s u ∧ s.client.serverName ≠ none := by
  have hr : Ready ({ client := .init k name port, hist := [] } : St) := ⟨nofun, nofun⟩
  have hn : Named ({ client := .init k name port, hist := [] } : St) := by simp [Named, Client.init]
  constructor
  · have key : wp env (life cs) (fun _ _ => True) Blamed { client := .init k name port, hist := [] } := by
      unfold life
      rw [wp_bind]
      refine wp_mono (runCalls_ready env cs hcs _ hr) (fun r s1 h1 => ?_) (fun _ _ h => h)
      rw [wp_bind]
      exact wp_mono (destroy_ready s1 h1) (fun _ _ h => h) (fun _ _ h => h)
    unfold wp at key
    rw [h] at key
    exact key u rfl
  · have h1 := runCalls_named env cs _ hn
    unfold life at h
    rw [bind_run] at h
    cases hd : runCalls cs env { client := .init k name port, hist := [] } with
    | mk r s1 =>
      rw [hd] at h1 h
      cases r with
      | stop e => cases h; exact h1
      | ok a =>
        simp only at h
        rw [bind_run] at h
        have h2 : (destroy env s1).2.client.serverName = s1.client.serverName := by
          haveI := name_anything
          unfold destroy
          rw [bind_run]
          exact (cleanup_steps (env := env) (R := fun s s' : St => s'.client.serverName = s.client.serverName)).state (St.snoc s1 .destroy)
        cases hx : destroy env s1 with
        | mk r2 s2 =>
          rw [hx] at h2 h
          cases r2 with
          | ok a => cases h
          | stop e =>
            cases h
            rw [h2]
            exact h1

/-- An event without danger: less than 1024 bytes at once, all of them ASCII, small descriptors, addresses of at most four bytes, an
ordinary server name. -/
def Mild : Ev → Prop
  | .recv _ (.data d) => d.length < 1024 ∧ ∀ c ∈ d, c < 128
  | .connect fd _ _ => fd < 1024
  | .resolve _ (some a) => a.length ≤ 4
  | .call (.setServerName (some m)) => ∀ c ∈ m, c < 128
  | _ => True

/-- **C49, partial.** If nothing dangerous happened, the server name is not too long, and an AUTH line was understood whenever there are
credentials, there is no undefined behaviour, whatever else the server and the network do. -/
theorem C49_no_undefined_behaviour_partial (env : Env) (k : Kind) (name : Bytes) (port : Nat) (cs : List Call) (hcs : ∀ c ∈ cs, CallOk c)
    (r : Res (List CallRes)) (s : St) (h : life cs env { client := .init k name port, hist := [] } = (r, s)) (hm : ∀ e ∈ s.hist, Mild e)
    (hn : ∀ n, s.client.serverName = some n → n.length + 1 + decimals s.client.port < 1024)
    (ha : s.client.credential = none ∨ s.client.authOptions ≠ none) (u : UB) : r ≠ .stop (.ub u) := by
  rintro rfl
  obtain ⟨hf, hname⟩ := C49_one_object_partial env k name port cs hcs u s h
  cases hf with
  | longRead fd d last len =>
    have := (hm _ (List.mem_of_getLast? last)).1
    omega
  | noMechanisms c cred none =>
    rcases ha with ha | ha
    · rw [ha] at cred; cases cred
    · exact ha none
  | longName n r hs len last => have := hn n hs; omega
  | highDescriptor p high last =>
    have : s.client.sock < 1024 := hm _ (List.mem_of_getLast? last)
    omega
  | longAddress n a len last =>
    have : a.length ≤ 4 := hm _ (List.mem_of_getLast? last)
    omega
  | strangeReply c kind sent high =>
    obtain ⟨ch, d, h1, h2⟩ := sent
    have := (hm _ h1).2 c h2
    exact absurd high (UInt8.not_le.mpr this)
  | strangeName m last c mem high =>
    have := hm _ (List.mem_of_getLast? last) c mem
    exact absurd high (UInt8.not_le.mpr this)
  | noName hs => exact hname hs

/-! ### Well-formed messages -/

/-- The constructor makes well-formed messages when the arrays are as long as the caller says, and null arrays have length 0. -/
theorem C49_constructed_messages (frm : MessageAddress) (to cc bcc : Option (List MessageAddress)) (nTo nCc nBcc nAtt : Nat)
    (subject body : Option Bytes) (att : Option (List Attachment)) (mime : Bytes)
    (hto : nTo ≤ (to.getD []).length) (hcc : nCc ≤ (cc.getD []).length) (hbcc : nBcc ≤ (bcc.getD []).length) (hatt : nAtt ≤ (att.getD []).length) :
    MessageOk (Message.new frm to nTo subject body cc nCc bcc nBcc att nAtt mime) := by
  have key : ∀ {α : Type} (p : Option (List α)) (n : Nat), n ≤ (p.getD []).length → ArrayOk (Arr.ofArgs p n) := by
    intro α p n h
    cases p with
    | none => simpa [ArrayOk, Arr.ofArgs] using h
    | some l => simp only [Option.getD_some] at h; simp only [ArrayOk, Arr.ofArgs, Option.map_some, List.length_take]; omega
  exact ⟨key _ _ hto, key _ _ hcc, key _ _ hbcc, key _ _ hatt⟩

/-- Every message of the C++ API is well-formed. -/
theorem C49_cpp_messages (b : Bool) (m : CppMessage) (m' : Message) (h : m.convert b = .ok m') : MessageOk m' := by
  have key : ∀ {α : Type} (l : List α), l.length ≤ ((vectorData b l).getD []).length := by
    intro α l
    unfold vectorData
    split
    · next h => simp only [Bool.and_eq_true, List.isEmpty_iff] at h; simp [h.1]
    · simp
  unfold CppMessage.convert at h
  simp only [bind, Except.bind, pure, Except.pure] at h
  repeat' (split at h)
  all_goals first
    | (cases h; done)
    | (injection h with h; subst h; exact C49_constructed_messages _ _ _ _ _ _ _ _ _ _ _ _ (key _) (key _) (key _) (key _))

/-! ### Non-vacuity -/

/-- A life with credentials and an AUTH line: nothing dangerous happens. -/
example : (let r := life [.setCredentials { username := b!"u", password := b!"p" }, .sendMail mail] (scripted ([.data b!"220 hi\r\n"] ++
      clear [b!"250-mail.org\r\n250-AUTH LOGIN\r\n250 OK\r\n", b!"334 u\r\n", b!"334 p\r\n", b!"235 ok\r\n", b!"250 ok\r\n", b!"250 ok\r\n", b!"354 go\r\n",
        b!"250 ok\r\n"])) (fresh .smtp)
    (r.1, r.2.hist.all fun
      | .recv _ (.data d) => decide (d.length < 1024) && d.all (· < 128)
      | .connect fd _ _ => decide (fd < 1024)
      | .resolve _ (some a) => decide (a.length ≤ 4)
      | _ => true)) = (.ok [.done, .returned 0], true) := by decide +kernel

/-! ### What is refuted -/

/-- A reply of exactly the size of the buffer. -/
def longReply : Bytes := b!"250 " ++ List.replicate 1018 97 ++ b!"\r\n"

/-- **C49, refuted**: a reply of 1024 bytes to EHLO is written one byte beyond the buffer. -/
theorem C49_long_reply : longReply.length = 1024 ∧
    (sendMail mail (scripted [.data b!"220 hi\r\n", .data longReply]) (fresh .smtp)).1 = .stop (.ub .outOfBounds) := by
  constructor <;> decide +kernel

/-- **C49, refuted**: any read of 1024 bytes in clear text while waiting for a reply does it, in every state and every world. -/
theorem C49_every_long_read (env : Env) (s : St) (acc d : Bytes) (wait n : Nat) (got : Bool) (hd : 1024 ≤ d.length)
    (hr : env.recv s.hist (.raw s.client.sock) = .data d) : (rawReplyLoop (n + 1) wait acc got env s).1 = .stop (.ub .outOfBounds) := by
  have key : wp env (rawReplyLoop (n + 1) wait acc got) (fun _ _ => False) (fun e _ => e = .ub .outOfBounds) s := by
    unfold rawReplyLoop sysRecv
    rw [wp_bind, wp_gets, wp_bind, wp_gets, wp_bind, wp_bind, wp_ask]
    have hne : d.isEmpty = false := by cases d <;> simp_all
    simp only [hr, normRecv, hne, Bool.false_eq_true, if_false, reduceCtorEq, wp_pure]
    rw [if_pos (by rw [List.length_take]; omega)]
    exact rfl
  unfold wp at key
  split at key
  · exact key.elim
  · rename_i e; rw [e]; simp_all

/-- **C49, refuted**: a server that offers no authentication to a client with credentials. -/
theorem C49_no_mechanisms :
    (sendMail mail (scripted ([.data b!"220 hi\r\n"] ++ clear [b!"250-mail.org\r\n250 OK\r\n"])) (withCredential .implicit)).1 =
      .stop (.ub .nullDeref) := by decide +kernel

/-- **C49, refuted**: a server whose reply to EHLO ends with a byte outside ASCII, which `isspace` is asked about when the reply is trimmed. -/
theorem C49_strange_reply :
    (sendMail mail (scripted ([.data b!"220 hi\r\n"] ++ clear [b!"250 caf" ++ [195, 169]])) (fresh .opportunistic)).1 =
      .stop (.ub .isspaceDomain) := by decide +kernel

/-- **C49, refuted**: the process has many open files and the connection takes a moment. -/
theorem C49_high_descriptor :
    (sendMail mail { scripted [] with socket := fun _ => .val 1024, connect := fun _ _ _ => .err 115 } (fresh .smtp)).1 =
      .stop (.ub .fdSetRange) := by decide +kernel

/-- **C49, refuted**: a resolver that answers with an IPv6 address, of 16 bytes, which is copied into the four bytes of `sin_addr`. -/
theorem C49_long_address :
    (sendMail mail { scripted [] with resolve := fun _ _ => some (List.replicate 16 1) } (fresh .smtp)).1 = .stop (.ub .outOfBounds) := by
  decide +kernel

/-- **C49, refuted**: a long server name that resolves, with TLS. -/
theorem C49_long_name :
    (sendMail mail (scripted []) { client := Client.init .forced (List.replicate 1020 97) 465, hist := [] }).1 = .stop (.ub .outOfBounds) := by
  decide +kernel

end Verif.Props
