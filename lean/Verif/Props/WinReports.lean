import Verif.Proofs.WinReports
import Verif.Props.WinSock
/-!
# What the opening on Windows reports (C83)
-/
namespace Verif.Props
open Verif Verif.Model Verif.Spec Verif.Proofs

/-- Whatever the system does, opening a session on Windows ends, and the result, the error number and the communication log tell which step failed. -/
theorem C83_opening_reports (env : WinEnv) (s : WinSt) (name : Bytes) (hn : s.client.base.serverName = some name) (hz : 0 ∉ name)
    (ht : ∀ n t, env.wsaText n = some t → 0 ∉ t) :
    ∃ code s' evs number texts l, initializeSessionWin env s = (.ok code, s') ∧ s'.hist = s.hist ++ evs ∧
      WinOpening env name s.client.base.port s.hist evs code number texts ∧
      s'.client.base.lastErrNo = number.getD s.client.base.lastErrNo ∧ s'.client.base.log = some l ∧ l.content = clientLog texts := by
  have h := initializeSessionWin_says (env := env) s hn hz ht
  unfold wpW at h
  cases hr : initializeSessionWin env s with
  | mk r s' =>
    rw [hr] at h
    cases r with
    | stop e => exact h.elim
    | ok code =>
      obtain ⟨evs, num, texts, ho, hh, he, l, hl, hc⟩ := h
      exact ⟨code, s', evs, num, texts, l, rfl, hh, ho, he, hl, hc⟩

/-- So the result alone names the step: the last thing tried before `WSACleanup`. -/
theorem C83_code_names_step (env : WinEnv) (s s' : WinSt) (name : Bytes) (code : Int) (hn : s.client.base.serverName = some name) (hz : 0 ∉ name)
    (ht : ∀ n t, env.wsaText n = some t → 0 ∉ t) (hr : initializeSessionWin env s = (.ok code, s')) :
    ∃ evs, s'.hist = s.hist ++ evs ∧ (
      code = -4 ∧ (∃ r, r ≠ 0 ∧ evs = [.startup r]) ∨
      code = -5 ∧ (∃ n p r c, r ≠ 0 ∧ evs = [.startup 0, .resolve n p r, .wsaCleanup c]) ∨
      code = -1 ∧ (∃ n p k c, handleInt k = -1 ∧ evs = [.startup 0, .resolve n p 0, .socket k, .wsaCleanup c]) ∨
      code = -2 ∧ (∃ n p k f c, handleInt k ≠ -1 ∧ evs = [.startup 0, .resolve n p 0, .socket k, .connect f false, .wsaCleanup c]) ∨
      code = 0 ∧ (∃ n p k f, handleInt k ≠ -1 ∧ evs = [.startup 0, .resolve n p 0, .socket k, .connect f true])) := by
  obtain ⟨code', s1, evs, num, texts, l, h1, hh, ho, -⟩ := C83_opening_reports env s name hn hz ht
  rw [hr] at h1
  cases h1
  refine ⟨evs, hh, ?_⟩
  cases ho with
  | noWinsock r h => exact .inl ⟨rfl, r, h, rfl⟩
  | noAddress r c evs h e => exact .inr (.inl ⟨rfl, _, _, r, c, h, e⟩)
  | noSocket c e made evs k hk em _ ee => exact .inr (.inr (.inl ⟨rfl, _, _, k, c, hk, by rw [ee, em]; rfl⟩))
  | noConnection c e made evs k hk em _ ee => exact .inr (.inr (.inr (.inl ⟨rfl, _, _, k, _, c, hk, by rw [ee, em]; rfl⟩)))
  | connected k hk => exact .inr (.inr (.inr (.inr ⟨rfl, _, _, k, _, hk, rfl⟩)))

/-- Changing the blocking mode ends too. When the system refuses, the result is -8 (to non blocking) or -7 (to blocking), the number is recorded and its text logged;
when it does not, only the history changes. -/
theorem C83_mode_reports (env : WinEnv) (s : WinSt) (nb : Bool) (l : Log) (hl : s.client.base.log = some l) (hs : l.size = l.cap ∧ l.content.length < l.size)
    (ht : ∀ n, 0 ∉ env.errText n) :
    ∃ code s' ok, setBlockingWin nb env s = (.ok code, s') ∧ s'.hist = s.hist ++ [.ioctl s.client.base.sock nb ok] ∧
      (ok = true → code = 0 ∧ s'.client = s.client) ∧
      (ok = false → code = (if nb then -8 else -7) ∧ s'.client.base.lastErrNo = env.lastError s'.hist ∧
        ∃ l', s'.client.base.log = some l' ∧ l'.content = l.content ++ clientLog [env.errText (env.lastError s'.hist)]) := by
  have ho : LogOk l := ⟨hs.1, by rw [← hs.1]; exact hs.2⟩
  have h := setBlockingWin_says (env := env) nb s hl ho ht
  unfold wpW at h
  cases hr : setBlockingWin nb env s with
  | mk r s' =>
    rw [hr] at h
    cases r with
    | stop e => exact h.elim
    | ok code =>
      obtain ⟨ok, hh, h⟩ := h
      refine ⟨code, s', ok, rfl, hh, fun e => ?_, fun e => ?_⟩
      · rcases h with ⟨-, h⟩ | ⟨e', -⟩
        · exact h
        · rw [e] at e'; cases e'
      · rcases h with ⟨e', -⟩ | ⟨-, hc, ⟨l1, l2, e1, -, e2, -, c⟩, hn⟩
        · rw [e] at e'; cases e'
        · rw [hl] at e1
          cases e1
          exact ⟨hc, hn, l2, e2, c⟩

/-- A system with another number for every failure: connecting fails with 10061, a `WSACleanup` after it with 10093. -/
def winTroubled : WinEnv :=
  { winFine with connect := fun _ _ => false, wsaCleanup := fun _ => -1, lastError := fun h => if h.length = 4 then 10061 else 10093,
                 wsaText := fun n => if n = 10061 then some b!"refused" else none }

/-- Both failures are in the log, but the number that remains is that of `WSACleanup`: the reason why the connection failed is overwritten. -/
theorem C83_number_overwritten :
    (let r := initializeSessionWin winTroubled winNew; r.1 = .ok (-2) ∧ r.2.client.base.lastErrNo = 10093 ∧
      r.2.client.base.log.map (·.content) =
        some b!"\nc: Trying to connect to mail on port 25\nc: refused\nc: WSACleanup failed with error: 10093") := by decide +kernel

/-- With a working `WSACleanup` it is the number of the step that failed. -/
theorem C83_number_kept (env : WinEnv) (s s' : WinSt) (name : Bytes) (code : Int) (hn : s.client.base.serverName = some name) (hz : 0 ∉ name)
    (ht : ∀ n t, env.wsaText n = some t → 0 ∉ t) (hr : initializeSessionWin env s = (.ok code, s')) (hk : CleanupsWork s'.hist) (hc : code ≠ 0) :
    ∃ before, before <+: s'.hist ∧ (s'.hist = before ∨ s'.hist = before ++ [.wsaCleanup 0]) ∧
      (before.getLast? = some (.startup s'.client.base.lastErrNo) ∨
       (∃ n p, before.getLast? = some (.resolve n p s'.client.base.lastErrNo)) ∨
       s'.client.base.lastErrNo = env.lastError before ∧
        (∃ k, before.getLast? = some (.socket k) ∨ before.getLast? = some (.connect (handleInt k) false))) := by
  obtain ⟨code', s1, evs, num, texts, l, h1, hh, ho, he, -⟩ := C83_opening_reports env s name hn hz ht
  rw [hr] at h1
  cases h1
  have clean : ∀ {c : Int}, .wsaCleanup c ∈ evs → c = 0 := fun hm => hk _ (by rw [hh]; exact List.mem_append_right _ hm)
  cases ho with
  | noWinsock r hr =>
    refine ⟨s'.hist, List.prefix_rfl, .inl rfl, .inl ?_⟩
    rw [hh, he]; simp
  | noAddress r c evs hr e =>
    have h0 : c = 0 := clean (by simp [e])
    subst h0
    refine ⟨s.hist ++ [.startup 0, .resolve (some name) (decimalText s.client.base.port) r], ?_, .inr (by rw [hh, e]; simp), .inr (.inl ⟨some name, decimalText s.client.base.port, ?_⟩)⟩
    · rw [hh, e]; exact ⟨[.wsaCleanup 0], by simp⟩
    · rw [he]
      simp only [List.getLast?_append, List.getLast?_cons_cons, List.getLast?_singleton, Option.some_or, keptNumber, if_true, Option.getD_some]
  | noSocket c e made evs k hk' em ee ev =>
    have h0 : c = 0 := clean (by simp [ev])
    subst h0
    refine ⟨s.hist ++ made, ?_, .inr (by rw [hh, ev]; simp), .inr (.inr ⟨?_, k, .inl ?_⟩)⟩
    · rw [hh, ev]; exact ⟨[.wsaCleanup 0], by simp⟩
    · rw [he, ← ee]; rfl
    · rw [em]; simp
  | noConnection c e made evs k hk' em ee ev =>
    have h0 : c = 0 := clean (by simp [ev])
    subst h0
    refine ⟨s.hist ++ made, ?_, .inr (by rw [hh, ev]; simp), .inr (.inr ⟨?_, k, .inr ?_⟩)⟩
    · rw [hh, ev]; exact ⟨[.wsaCleanup 0], by simp⟩
    · rw [he, ← ee]; rfl
    · rw [em]; simp
  | connected k hk => exact absurd rfl hc

/-- Non-vacuity: a refused connection, with Winsock stopped again. -/
example : winNew.client.base.serverName = some b!"mail" ∧ (∀ n t, winNoServer.wsaText n = some t → 0 ∉ t) ∧
    (let r := initializeSessionWin winNoServer winNew; r.1 = .ok (-2) ∧ r.2.client.base.lastErrNo = 10093 ∧
      r.2.hist = [.startup 0, .resolve (some b!"mail") b!"25" 0, .socket 300, .connect 300 false, .wsaCleanup 0] ∧
      r.2.client.base.log.map (·.content) = some b!"\nc: Trying to connect to mail on port 25\nc: error") := by
  refine ⟨rfl, ?_, by decide +kernel⟩
  intro n t h
  cases h
  decide

/-- Non-vacuity: a refused change of mode. -/
example : (let r := setBlockingWin false { winFine with ioctl := fun _ _ _ => false } { winNew with client := { winNew.client with base := { winNew.client.base with log := some .fresh } } }; r.1 = .ok (-7) ∧ r.2.client.base.lastErrNo = 10093 ∧ r.2.client.base.log.map (·.content) = some b!"\nc: error") ∧
    (Log.fresh.size = Log.fresh.cap ∧ Log.fresh.content.length < Log.fresh.size) ∧ (∀ n, 0 ∉ winFine.errText n) := by
  refine ⟨by decide +kernel, by decide, fun n => by show 0 ∉ b!"error"; decide⟩

end Verif.Props
