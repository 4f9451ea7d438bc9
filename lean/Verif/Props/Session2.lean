import Verif.Proofs.Session3
import Verif.Props.Session

/-!
# Properties C38 to C42: closing and restoring sessions
-/

set_option autoImplicit false

namespace Webwire
open Spec

variable {ν υ : Type}

/-! ## C38 -/

namespace Spec

/-- The effect of closing the session with key `k` of connection `c`: it is destroyed if and only if `c` was its
last connection. -/
def DestroyedIfLast (w w' : World ν υ) (c : ConnId) (k : Bytes) : Prop :=
  ((∃ c', c' ≠ c ∧ Holds w c' k) → closedKeys w'.trace = closedKeys w.trace) ∧
  ((∀ c', c' ≠ c → ¬ Holds w c' k) → closedKeys w'.trace = closedKeys w.trace ++ [k])

end Spec

/-- C38, full statement for `Connection.CloseSession`: in all histories, a session is destroyed exactly when its
last connection closes it. -/
def C38_full : Prop :=
  ∀ (υ : Type) (srv : Server Net υ) (w w' : World Net υ) (c : ConnId) (s : Session) (e : Option Err), ideal srv →
    Reachable srv true w → srv.sessionsEnabled = true → (w.conns c).session = some s →
    closeSession srv w c = .ok (w', e) → DestroyedIfLast w w' c s.key

/-- C38 is violated by the code: connections 1 and 2 have the session `[1]`, connection 2 restores another
session; when 1 closes its session it is the last one, but the session is not destroyed. -/
theorem C38_destroyed_violated : ¬ C38_full := by
  intro h
  have h1 : ∃ w1, handleConnection (sessServer 0) sessStart 1 0 [] = .ok w1 ∧ w1.conns 2 = {} ∧
      ∃ w2, handleConnection (sessServer 0) w1 2 0 [] = .ok w2 ∧
      ∃ w3, serve (sessServer 0) w2 1 [.data [32, 0,0,0,0,0,0,0,1, 1]] = .ok w3 ∧
      ∃ w4, serve (sessServer 0) w3 2 [.data [32, 0,0,0,0,0,0,0,1, 1]] = .ok w4 ∧
      ∃ w5, serve (sessServer 0) w4 2 [.data [32, 0,0,0,0,0,0,0,2, 1, 1]] = .ok w5 ∧
      (w5.conns 1).session = some { key := [1], creation := 1, lastLookup := 2, info := none } ∧
      (w5.conns 2).session = some { key := [1, 1], creation := 1, lastLookup := 2, info := none } ∧
      (∀ c, c ≠ 1 → c ≠ 2 → (w5.conns c).session = none) ∧
      ∃ w' e, closeSession (sessServer 0) w5 1 = .ok (w', e) ∧ closedKeys w'.trace = [] ∧ closedKeys w5.trace = [] := by
    refine ⟨_, rfl, rfl, _, rfl, _, rfl, _, rfl, _, rfl, rfl, rfl, ?_, _, _, rfl, rfl, rfl⟩
    intro c h1 h2
    simp [World.log, releaseMsg, World.upd, setSession, registerTask, h1, h2, sessStart]
  obtain ⟨w1, h1, hf, w2, h2, w3, h3, w4, h4, w5, h5, s1, s2, so, w', e, hc, k1, k2⟩ := h1
  have r0 : Reachable (sessServer 0) true sessStart := .start _ ⟨rfl, fun _ => rfl, rfl⟩
  have r1 := Reachable.step _ _ r0 (.accept _ _ 1 0 rfl h1)
  have r2 := Reachable.step _ _ r1 (.accept _ _ 2 0 hf h2)
  have r3 := Reachable.step _ _ r2 (.receive _ _ 1 _ (.inl rfl) h3)
  have r4 := Reachable.step _ _ r3 (.receive _ _ 2 _ (.inl rfl) h4)
  have r5 := Reachable.step _ _ r4 (.receive _ _ 2 _ (.inl rfl) h5)
  have := (h Nat (sessServer 0) w5 w' 1 _ e rfl r5 rfl s1 hc).2 ?_
  · rw [k1, k2] at this
    simp at this
  · rintro c hc' ⟨s, hs, hk⟩
    by_cases h2 : c = 2
    · subst h2
      rw [s2] at hs
      cases hs
      simp at hk
    · rw [so c hc' h2] at hs
      cases hs

/-- C38 for `Connection.CloseSession` in agreeing states, which by `C34_registry_agrees_partial` are those after
all histories without restorations over an existing session (and no repeated keys under a limit). Missing
compared to `C38_full`: the other histories. -/
theorem C38_close_session_partial (srv : Server ν υ) (issued : υ → Bytes → Prop) (w w' : World ν υ) (c : ConnId)
    (s : Session) (e : Option Err) (hr : Reachable srv false w) (hk : srv.maxConns = 0 ∨ FreshKeys srv.hooks issued)
    (hse : srv.sessionsEnabled = true) (hs : (w.conns c).session = some s)
    (h : closeSession srv w c = .ok (w', e)) :
    DestroyedIfLast w w' c s.key ∧ (w'.conns c).session = none := by
  obtain ⟨a, b, d, _⟩ := closeSession_leaves hse (reachable_regOk hr) (C34_registry_agrees_partial srv issued w hr hk) hs h
  exact ⟨⟨a, b⟩, by rw [d]; simp⟩

/-- C38 for a client's request to close its session, likewise. Missing: as for `C38_close_session_partial`. -/
theorem C38_closure_request_partial (srv : Server ν υ) (issued : υ → Bytes → Prop) (w w' : World ν υ) (c : ConnId)
    (s : Session) (ident : Bytes) (hid : ident.length = 8) (hfit : 9 ≤ srv.bufferSize.toNat)
    (hr : Reachable srv false w) (hk : srv.maxConns = 0 ∨ FreshKeys srv.hooks issued)
    (hse : srv.sessionsEnabled = true) (hs : (w.conns c).session = some s) (ha : (w.conns c).isActive = true)
    (hsd : w.shutdown = false) (h : serve srv w c [.data (31 :: ident)] = .ok w') :
    DestroyedIfLast w w' c s.key ∧ (w'.conns c).session = none := by
  have hag := C34_registry_agrees_partial srv issued w hr hk
  obtain ⟨m, h1, _, _, _, h4⟩ := serve_grammar (srv := srv) (w := w) (c := c) (rest := [])
    (Grammar.closeSession ident hid) (by simp [hid]; exact hfit)
  rw [h4] at h
  obtain ⟨w1, h5, h⟩ := bind_ok h
  simp only [serve, Except.ok.injEq] at h
  subst h
  have et : m.msgType = 31 := by
    have : m.shown.msgType = 31 := by rw [h1]
    exact this
  have h6 := (handleMessage_session ha hsd h5).2 et
  have hsm := Same.registered w c
  obtain ⟨w2, w3, hk, hd, rfl⟩ := handleSessionClosure_ok h6
  have hs' : ((registered w c).conns c).session = some s := by rw [hsm.session]; exact hs
  rcases hk with ⟨hx, _⟩ | ⟨_, hx, _⟩ | ⟨_, _, w1, n, hdr, hf⟩
  · rw [hse] at hx; cases hx
  · rw [hs'] at hx; cases hx
  · obtain ⟨a, b, d, _⟩ := leave_closed (hsm.agrees hag) hs' hdr
    have hact : (w2.conns c).isActive = true := by
      rw [(Same.fulfillMsg hf).active]
      have : ((setSession w1 c none).conns c).isActive = (w1.conns c).isActive := by
        simp [setSession, World.upd]
      rw [this]
      have hq := (Quiet.deregister hdr)
      have hconns : w1.conns = (registered w c).conns := by
        rcases deregister_ok hdr with ⟨_, rfl, _⟩ | ⟨s, _, _, ⟨_, rfl⟩ | ⟨_, _, _, rfl⟩⟩ <;> rfl
      rw [hconns, hsm.active]; exact ha
    have hfin := (Same.fulfillMsg hf).trans ((Same.deregisterHandler hact hd).trans (Same.release w3))
    have hck : closedKeys (releaseMsg w3).trace = closedKeys w1.trace := hfin.closed
    refine ⟨⟨?_, ?_⟩, ?_⟩
    · rintro ⟨c', h1, h2⟩
      rw [hck, a ⟨c', h1, (hsm.holds _ _).mpr h2⟩]; exact hsm.closed
    · intro hx
      rw [hck, b fun c' h1 h2 => hx c' h1 ((hsm.holds _ _).mp h2), hsm.closed]
    · rw [hfin.session]
      simp [setSession, World.upd]

/-- C38: nothing else destroys a session. Whatever a connection receives other than a session closure request,
including the end of the connection, no session is destroyed, unless a hook closes one; in all states, even
those in which the registry and the connections disagree. -/
theorem C38_never_otherwise (srv : Server ν υ) (w w' : World ν υ) (c : ConnId) (i : Incoming)
    (hn : NeverCloses srv.hooks) (hi : ∀ rest, i ≠ .data (31 :: rest))
    (h : serve srv w c [i] = .ok w') : closedKeys w'.trace = closedKeys w.trace := by
  cases i with
  | failed b =>
    exact Kept.disconnect hn h
  | data bs =>
    by_cases hg : bs.length ≤ srv.bufferSize.toNat ∧ ∃ v, Grammar bs v
    · obtain ⟨hfit, v, hg⟩ := hg
      obtain ⟨m, h1, _, _, _, h4⟩ := serve_grammar (srv := srv) (w := w) (c := c) (rest := []) hg hfit
      rw [h4] at h
      obtain ⟨w1, h5, h⟩ := bind_ok h
      simp only [serve, Except.ok.injEq] at h
      subst h
      refine Kept.handleMessage hn ?_ h5
      intro ht
      have hv : v.msgType = 31 := by rw [← h1]; exact ht
      have : ∃ rest, bs = v.msgType :: rest := by cases hg <;> exact ⟨_, rfl⟩
      obtain ⟨rest, hb⟩ := this
      rw [hv] at hb
      exact hi rest (by rw [hb])
    · rw [serve_malformed (fun hf hx => hg ⟨hf, hx⟩)] at h
      exact Kept.disconnect hn h

/-- C38: API calls other than `CloseSession` destroy no session either. -/
theorem C38_never_by_other_calls (srv : Server ν υ) (w w' : World ν υ) (a : ApiCall)
    (ha : match a with | .closeSession _ => False | .srvCloseSession _ _ => False | _ => True)
    (h : runApi srv w a = .ok w') : closedKeys w'.trace = closedKeys w.trace := by
  refine Kept.runApi ?_ h
  cases a <;> simp_all [Closing]

/-- C38, non-vacuity: a session with two connections is destroyed by the second closure, and not by a
disconnection. -/
example : ∃ w1 w2 w3 w4 w5 w6, handleConnection (sessServer 0) sessStart 1 0 [.data [32, 0,0,0,0,0,0,0,1, 1]] = .ok w1 ∧
    handleConnection (sessServer 0) w1 2 0 [.data [32, 0,0,0,0,0,0,0,1, 1]] = .ok w2 ∧
    handleConnection (sessServer 0) w2 3 0 [.data [32, 0,0,0,0,0,0,0,1, 1]] = .ok w3 ∧
    serve (sessServer 0) w3 1 [.data [31, 0,0,0,0,0,0,0,2]] = .ok w4 ∧ closedKeys w4.trace = [] ∧
    serve (sessServer 0) w4 3 [.failed true] = .ok w5 ∧ closedKeys w5.trace = [] ∧
    serve (sessServer 0) w5 2 [.data [31, 0,0,0,0,0,0,0,2]] = .ok w6 ∧ closedKeys w6.trace = [[1]] :=
  ⟨_, _, _, _, _, _, rfl, rfl, rfl, rfl, rfl, rfl, rfl, rfl, rfl⟩

/-- C38, non-vacuity: the example hooks never close sessions. -/
example : NeverCloses sessHooks := by constructor <;> simp [sessHooks]

/-! ## C39 -/

namespace Spec

/-- What `Server.CloseSession(key)` must do and return. -/
def ClosesWhole (w w' : World ν υ) (key : Bytes)
    (r : Option (List ConnId) × Option (List (Option Err)) × Option Err) : Prop :=
  ((∀ c, ¬ Holds w c key) → r = (none, none, none) ∧ w' = w) ∧
  ((∃ c, Holds w c key) → ∃ conns es, r.1 = some conns ∧ r.2.1 = some es ∧
    conns.Nodup ∧ (∀ c, c ∈ conns ↔ Holds w c key) ∧ es.length = conns.length ∧
    (r.2.2 = none ↔ ∀ e ∈ es, e = none) ∧
    (∀ c ∈ conns, (w'.conns c).session = none) ∧
    (∀ c, c ∉ conns → (w'.conns c).session = (w.conns c).session) ∧
    sessionConnectionsNum w' key = -1 ∧
    closedKeys w'.trace = closedKeys w.trace ++ [key])

end Spec

/-- C39, full statement. -/
def C39_full : Prop :=
  ∀ (υ : Type) (srv : Server Net υ) (w w' : World Net υ) (key : Bytes) (order : List ConnId) (r), ideal srv →
    Reachable srv true w → srv.sessionsEnabled = true → srvCloseSession srv w key order = .ok (w', r) →
    ClosesWhole w w' key r

/-- C39 is violated by the code: after connection 1 restored the session `[1]` and then `[1, 1]`,
`CloseSession([1])` destroys the session `[1, 1]` and the session `[1]` remains active. -/
theorem C39_closes_whole_session_violated : ¬ C39_full := by
  intro h
  obtain ⟨w, hr, hs, _, w', r, hc, hn, hk, hk', hs'⟩ := overwritten
  have := (h Nat (sessServer 0) w w' [1] [1] r rfl hr rfl hc)
  by_cases hx : ∃ c, Holds w c [1]
  · obtain ⟨conns, es, _, _, _, _, _, _, _, _, hnum, _⟩ := this.2 hx
    rw [hn] at hnum
    cases hnum
  · have := (this.1 (fun c hc => hx ⟨c, hc⟩)).2
    rw [this, hk] at hk'
    cases hk'

/-- C39 in the states after all histories without restorations over an existing session (and no repeated keys
under a connection limit), for any socket behaviour. Missing compared to `C39_full`: the other histories. -/
theorem C39_closes_whole_session_partial (srv : Server ν υ) (issued : υ → Bytes → Prop) (w w' : World ν υ)
    (key : Bytes) (order : List ConnId) (r) (hr : Reachable srv false w)
    (hk : srv.maxConns = 0 ∨ FreshKeys srv.hooks issued) (hse : srv.sessionsEnabled = true)
    (h : srvCloseSession srv w key order = .ok (w', r)) : ClosesWhole w w' key r := by
  have hag := C34_registry_agrees_partial srv issued w hr hk
  have hok := reachable_regOk hr
  rcases srvCloseSession_ok h with ⟨hg, rfl, rfl⟩ | ⟨set, conns, es, hg, hp, _, hcs, rfl⟩
  · refine ⟨fun _ => ⟨rfl, rfl⟩, ?_⟩
    rintro ⟨c, hc⟩
    exact absurd hc (hag.none hg c)
  · obtain ⟨hne, hnd, hmem⟩ := hag.set hg
    have hmem' : ∀ c, c ∈ conns ↔ Holds w c key := fun c => by rw [hp.mem_iff]; exact hmem c
    have hne' : conns ≠ [] := by rintro rfl; exact hne (List.nil_perm.mp hp)
    obtain ⟨p, q, s, hok', hag'⟩ := closeSessions_all hse hok hag (hp.nodup_iff.mpr hnd) hmem' hcs
    have hleft : ∀ c, c ∉ conns → (w'.conns c).session = (w.conns c).session := by
      intro c hc; rw [q c, if_neg hc]
    refine ⟨fun hx => ?_, fun _ => ⟨conns, es, rfl, rfl, hp.nodup_iff.mpr hnd, hmem', p, ?_, ?_, hleft, ?_, ?_⟩⟩
    · obtain ⟨c, hc⟩ := List.exists_mem_of_ne_nil _ hne'
      exact absurd ((hmem' c).mp hc) (hx c)
    · simp only [gt_iff_lt]
      constructor
      · intro hx e he
        by_contra hne
        have : 0 < es.countP Option.isSome := by
          rw [List.countP_pos_iff]
          exact ⟨e, he, by cases e with | none => exact absurd rfl hne | some _ => rfl⟩
        rw [if_pos this] at hx; cases hx
      · intro hx
        have : ¬ 0 < es.countP Option.isSome := by
          rw [List.countP_pos_iff]
          rintro ⟨e, he, hs⟩
          rw [hx e he] at hs; cases hs
        rw [if_neg this]
    · intro c hc; rw [q c, if_pos hc]
    · unfold sessionConnectionsNum
      cases hg' : w'.registry.get key with
      | none => rfl
      | some set' =>
        exfalso
        obtain ⟨hne', _, hm'⟩ := hag'.set hg'
        obtain ⟨c, hc⟩ := List.exists_mem_of_ne_nil _ hne'
        obtain ⟨s, h1, h2⟩ := (hm' c).mp hc
        by_cases hcc : c ∈ conns
        · rw [q c, if_pos hcc] at h1; cases h1
        · rw [hleft c hcc] at h1
          exact hcc ((hmem' c).mpr ⟨s, h1, h2⟩)
    · rw [s, if_neg hne']

/-- C39, non-vacuity: closing a session of two connections, in a given order. -/
example : ∃ w1 w2 w3 es, handleConnection (sessServer 0) sessStart 1 0 [.data [32, 0,0,0,0,0,0,0,1, 1]] = .ok w1 ∧
    handleConnection (sessServer 0) w1 2 0 [.data [32, 0,0,0,0,0,0,0,1, 1]] = .ok w2 ∧
    srvCloseSession (sessServer 0) w2 [1] [1, 2] = .ok (w3, some [1, 2], some es, none) ∧
    closedKeys w3.trace = [[1]] ∧ (w3.net.out 1).getLast? = some [22] ∧ (w3.net.out 2).getLast? = some [22] :=
  ⟨_, _, _, _, rfl, rfl, rfl, rfl, rfl, rfl⟩

/-! ## C40 -/

/-- C40: with sessions disabled, in every history, no connection has a session, none is registered, and no
function of the session manager was ever called. -/
theorem C40_no_sessions (srv : Server ν υ) (ow : Bool) (w : World ν υ) (hse : srv.sessionsEnabled = false)
    (hr : Reachable srv ow w) :
    (∀ c, (w.conns c).session = none) ∧ activeSessionsNum w = 0 ∧ ∀ e ∈ w.trace, isSessionHook e = false := by
  have hdis : srv.sessionsEnabled = true → False := fun h => by rw [hse] at h; cases h
  have key : ∀ w', Reachable srv ow w' →
      (∀ c, (w'.conns c).session = none) ∧ w'.registry = [] ∧ ∀ e ∈ w'.trace, isSessionHook e = false := by
    intro w' hr
    refine Reachable.invariant (I := fun w => (∀ c, (w.conns c).session = none) ∧ w.registry = [] ∧
      ∀ e ∈ w.trace, isSessionHook e = false) ?_ ?_ ?_ ?_ hr
    · refine { refl := fun _ h => h, trans := fun a b h => b (a h), getWriter := fun _ _ _ _ _ h => h
               write := fun _ _ _ _ _ _ h => h, flush := fun _ _ _ _ _ h => h, close := fun _ _ _ _ _ _ h => h
               generate := fun _ h => h, ops := fun _ _ _ h => h
               event := ?_, conn := ?_, leave := ?_, create := ?_, restore := ?_ }
      · intro w e u hl _ h
        refine ⟨h.1, h.2.1, fun e' he => ?_⟩
        simp only [World.log, List.mem_append, List.mem_singleton] at he
        rcases he with he | rfl
        · exact h.2.2 e' he
        · cases e' <;> first | rfl | exact absurd hl (by simp [LogOk, hse])
      · intro w c f hf h
        refine ⟨fun i => ?_, h.2⟩
        simp only [World.upd]
        split_ifs
        · rw [(hf _).1]; exact h.1 c
        · exact h.1 i
      · intro w c d w1 n _ hd h
        rcases deregister_ok hd with ⟨_, rfl, _⟩ | ⟨s, hs, _⟩
        · refine ⟨fun i => ?_, h.2⟩
          simp only [setSession, World.upd]
          split_ifs
          · rfl
          · exact h.1 i
        · rw [h.1 c] at hs; cases hs
      · intro w w1 c s w2 e hx
        exact absurd hx hdis
      · intro w c s w1 hx
        exact absurd hx hdis
    · exact fun w h => ⟨fun c => by rw [h.conns], h.registry, by rw [h.trace]; simp⟩
    · intro w c limit _ h
      refine ⟨fun i => ?_, h.2⟩
      simp only [World.upd]
      split_ifs
      · rfl
      · exact h.1 i
    · exact fun w h => h
  obtain ⟨a, b, d⟩ := key w hr
  exact ⟨a, by simp [activeSessionsNum, b], d⟩

/-- C40: `CreateSession` and `CloseSession` return `ErrSessionsDisabled` and do nothing. -/
theorem C40_calls_fail (srv : Server ν υ) (w : World ν υ) (c : ConnId) (info : Option Nat)
    (hse : srv.sessionsEnabled = false) :
    createSession srv w c info = .ok (w, some "sessions are disabled for this server") ∧
    closeSession srv w c = .ok (w, some "sessions are disabled for this server") := by
  unfold createSession closeSession
  simp only [hse, Bool.not_false, if_true]
  exact ⟨rfl, rfl⟩

/-- C40: requests to restore or to close a session get the sessions-disabled reply. -/
theorem C40_requests_refused (srv : Server Net υ) (w w' : World Net υ) (c : ConnId) (bs : Bytes) (v : View)
    (hse : srv.sessionsEnabled = false) (ha : Asked srv w c bs v) (ht : v.msgType = 31 ∨ v.msgType = 32)
    (hsd : w.shutdown = false) (h : serve srv w c [.data bs] = .ok w') :
    replies (w'.net.out c) = replies (w.net.out c) ++ [5 :: v.ident] := by
  obtain ⟨m, h1, h2, h3, _, h4⟩ := serve_grammar (srv := srv) (w := w) (c := c) (rest := []) ha.grammar ha.fits
  rw [h4] at h
  obtain ⟨w1, h5, h⟩ := bind_ok h
  simp only [serve, Except.ok.injEq] at h
  subst h
  have et : m.msgType = v.msgType := by rw [← h1]; rfl
  have hq : m.requiresReply = true := by
    rw [requiresReply_iff, et]
    exact ha.asks
  have hid : m.identifierBytes = v.ident := by
    apply h3
    unfold noIdentTypes
    intro hn
    rcases ht with h | h <;> rw [h] at hn <;> revert hn <;> decide
  obtain ⟨a, b⟩ := handleMessage_session ha.active hsd h5
  have hnet : (registered w c).net = w.net := rfl
  have fin : ∀ w2 w3, failMsg srv (registered w c) c m .sessionsDisabled = .ok w2 →
      deregisterHandler srv w2 c = .ok w3 →
      replies ((releaseMsg w3).net.out c) = replies (w.net.out c) ++ [5 :: v.ident] := by
    intro w2 w3 hf hd
    obtain ⟨r1, _⟩ := failMsg_replied ha.ideal (w := registered w c) ha.clean ha.connected hq rfl hf
    have r2 := (r1.trans (deregisterHandler_replied ha.ideal r1.pending hd)).here
    rw [hnet, hid] at r2
    exact r2
  rcases ht with ht | ht
  · obtain ⟨w2, w3, hk, hd, rfl⟩ := handleSessionClosure_ok (b (by rw [et, ht]))
    rcases hk with ⟨_, hf⟩ | ⟨hx, _⟩ | ⟨hx, _⟩
    · exact fin w2 w3 hf hd
    · rw [hse] at hx; cases hx
    · rw [hse] at hx; cases hx
  · obtain ⟨w2, w3, hk, hd, rfl⟩ := handleSessionRestore_ok (a (by rw [et, ht]))
    rcases hk with ⟨_, hf⟩ | ⟨hx, _⟩ | ⟨hx, _⟩ | ⟨hx, _⟩ | ⟨_, hx, _⟩ | ⟨_, _, _, hx, _⟩
    · exact fin w2 w3 hf hd
    · rw [hse] at hx; cases hx
    · rw [hse] at hx; cases hx
    · rw [hse] at hx; cases hx
    · rw [hse] at hx; cases hx
    · rw [hse] at hx; cases hx

/-- C40, non-vacuity. -/
example : ∃ w', handleConnection { sessServer 0 with sessionsEnabled := false } sessStart 1 0
    [.data [32, 0,0,0,0,0,0,0,1, 1], .data [31, 0,0,0,0,0,0,0,2]] = .ok w' ∧
    w'.net.out 1 = [[23,2,0,96,234,0,0,64,0,0,0], [5, 0,0,0,0,0,0,0,1], [5, 0,0,0,0,0,0,0,2]] := ⟨_, rfl, rfl⟩

/-! ## C41 -/

/-- C41, full statement: whatever `OnSessionClosed` does, closing a session returns, and deregisters it. -/
def C41_full : Prop :=
  ∀ (υ : Type) (srv : Server Net υ) (w : World Net υ) (c : ConnId) (s : Session), ideal srv →
    Reachable srv true w → srv.sessionsEnabled = true → (w.conns c).session = some s → (w.net.pending c) = [] →
    ∃ w' e, closeSession srv w c = .ok (w', e) ∧ (w'.conns c).session = none

/-- C41 is violated by the code: the recovery function dereferences the registry's `server` field, which is never
set, and panics itself, in the goroutine of the connection. -/
theorem C41_panic_contained_violated : ¬ C41_full := by
  intro h
  let srv : Server Net Nat := { sessServer 0 with
    hooks := { sessHooks with onSessionClosed := fun u _ => (u, .panicked "database is down") } }
  have h1 : ∃ w1, handleConnection srv sessStart 1 0 [.data [32, 0,0,0,0,0,0,0,1, 1]] = .ok w1 ∧
    ∃ w0, handleConnection srv sessStart 1 0 [] = .ok w0 ∧
      serve srv w0 1 [.data [32, 0,0,0,0,0,0,0,1, 1]] = .ok w1 ∧
      (∃ s, (w1.conns 1).session = some s) ∧ w1.net.pending 1 = [] ∧
      closeSession srv w1 1 = goPanic "nil pointer dereference in recovery from session closure hook panic" :=
    ⟨_, rfl, _, rfl, rfl, ⟨_, rfl⟩, rfl, rfl⟩
  obtain ⟨w1, _, w0, h0, h1, ⟨s, hs⟩, hp, hc⟩ := h1
  have r0 : Reachable srv true sessStart := .start _ ⟨rfl, fun _ => rfl, rfl⟩
  have r1 := Reachable.step _ _ r0 (.accept _ _ 1 0 rfl h0)
  have r2 := Reachable.step _ _ r1 (.receive _ _ 1 _ (.inl rfl) h1)
  obtain ⟨w', e, he, _⟩ := h Nat srv w1 1 s rfl r2 rfl hs hp
  rw [hc] at he
  cases he

theorem removed_last {w : World Net υ} {key : Bytes} {c : ConnId} (h : (registryRemove w.registry key c).2.2 = true) :
    0 ≤ sessionConnectionsNum w key ∧ sessionConnectionsNum w key < 2 := by
  unfold registryRemove at h
  unfold sessionConnectionsNum
  cases hg : w.registry.get key with
  | none => rw [hg] at h; cases h
  | some set =>
    rw [hg] at h
    simp only at h ⊢
    split_ifs at h with hl
    omega

theorem last_removed {w : World Net υ} {key : Bytes} (c : ConnId) (h0 : 0 ≤ sessionConnectionsNum w key)
    (h2 : sessionConnectionsNum w key < 2) : (registryRemove w.registry key c).2.2 = true := by
  unfold sessionConnectionsNum at h0 h2
  unfold registryRemove
  cases hg : w.registry.get key with
  | none => rw [hg] at h0; simp at h0
  | some set =>
    rw [hg] at h2
    simp only at h2 ⊢
    rw [if_pos (by omega)]

/-- C41 for hooks that return, with or without an error, if they are called, that is if no other connection has the session.
Missing compared to `C41_full`: hooks that panic then. -/
theorem C41_hook_errors_ignored_partial (srv : Server Net υ) (w : World Net υ) (c : ConnId) (s : Session)
    (hi : ideal srv) (hse : srv.sessionsEnabled = true) (hs : (w.conns c).session = some s)
    (hp : w.net.pending c = [])
    (hh : 0 ≤ sessionConnectionsNum w s.key → sessionConnectionsNum w s.key < 2 →
      ∃ e, (srv.hooks.onSessionClosed w.user s.key).2 = .returned e) :
    ∃ w' e, closeSession srv w c = .ok (w', e) ∧ (w'.conns c).session = none ∧
      (∀ order l, sessionConnections w' s.key order = some l → c ∉ l) ∧
      (∀ key order, key ≠ s.key → sessionConnections w' key order = sessionConnections w key order) := by
  have hd : ∃ w1 n, deregister srv w c true = .ok (w1, n) := by
    unfold deregister
    rw [hs]
    simp only
    split_ifs with hr
    · obtain ⟨e, he⟩ := hh (removed_last hr.1).1 (removed_last hr.1).2
      rw [he]; exact ⟨_, _, rfl⟩
    · exact ⟨_, _, rfl⟩
  obtain ⟨w1, n, hd⟩ := hd
  have hn : w1.net = w.net ∧ w1.registry = (registryRemove w.registry s.key c).1 := by
    rcases deregister_ok hd with ⟨hx, _, _⟩ | ⟨s', hs', _, ⟨_, rfl⟩ | ⟨_, _, _, rfl⟩⟩
    · rw [hs] at hx; cases hx
    · rw [hs] at hs'; cases hs'; exact ⟨rfl, rfl⟩
    · rw [hs] at hs'; cases hs'; exact ⟨rfl, rfl⟩
  have hw : ∃ w' e, withWriter srv (setSession w1 c none) c (fun wr s => writeMsgNotifySessionClosed wr s) = .ok (w', e) := by
    unfold withWriter
    have hpp : (setSession w1 c none).net.pending c = [] := by
      show w1.net.pending c = []
      rw [hn.1]; exact hp
    rw [hi]
    simp only [netSockets, bind, Except.bind]
    by_cases hc : (setSession w1 c none).net.connected c = true
    · rw [if_pos hc]
      simp only [pure, Except.pure]
      have := call_ideal c (setSession w1 c none).net .sessionClosed trivial (by simp [WriterCall.Panics]) hpp
      have h' : writeMsgNotifySessionClosed (idealSockets.writer c) (setSession w1 c none).net = _ := this
      simp only [netSockets] at h'
      rw [h']
      exact ⟨_, _, rfl⟩
    · rw [if_neg hc]
      exact ⟨_, _, rfl⟩
  obtain ⟨w', e, hw⟩ := hw
  have hsm := Same.withWriter hw
  have hreg : w'.registry = (registryRemove w.registry s.key c).1 := by
    rw [hsm.registry]
    exact hn.2
  refine ⟨w', e, ?_, ?_, ?_, ?_⟩
  · unfold closeSession
    simp only [hse, bind, Except.bind, hs, hd, Bool.not_true, Bool.false_eq_true, if_false]
    exact hw
  · rw [hsm.session]
    simp [setSession, World.upd]
  · intro order l hl
    unfold sessionConnections at hl
    rw [hreg, registryRemove_get, if_pos rfl] at hl
    cases hg : w.registry.get s.key with
    | none => rw [hg] at hl; cases hl
    | some set =>
      rw [hg] at hl
      simp only at hl
      split_ifs at hl with h1
      have hm : c ∉ setDelete set c := by simp [setDelete]
      simp only [Option.some.injEq] at hl
      split_ifs at hl with h2
      · rw [← hl]; intro hx; exact hm ((List.isPerm_iff.mp h2).subset hx)
      · rw [← hl]; exact hm
  · intro key order hk
    unfold sessionConnections
    rw [hreg, registryRemove_get, if_neg (Ne.symm hk)]

/-- C41: what is missing in `C41_hook_errors_ignored_partial` is wrong in every case: closing a session returns exactly if
the hook does, or another connection has the session so that the hook is not called. -/
theorem C41_returns_iff (srv : Server Net υ) (w : World Net υ) (c : ConnId) (s : Session)
    (hi : ideal srv) (hse : srv.sessionsEnabled = true) (hs : (w.conns c).session = some s)
    (hp : w.net.pending c = []) :
    (∃ w' e, closeSession srv w c = .ok (w', e)) ↔
      (0 ≤ sessionConnectionsNum w s.key → sessionConnectionsNum w s.key < 2 →
        ∃ e, (srv.hooks.onSessionClosed w.user s.key).2 = .returned e) := by
  constructor
  · rintro ⟨w', e, h⟩ h0 h2
    unfold closeSession at h
    have hr := last_removed c h0 h2
    cases ho : (srv.hooks.onSessionClosed w.user s.key).2 with
    | returned e => exact ⟨e, rfl⟩
    | panicked m =>
      have hd : deregister srv w c true =
          goPanic "nil pointer dereference in recovery from session closure hook panic" := by
        unfold deregister
        rw [hs]
        simp only [hr, ho, and_self, if_true]
      simp only [hse, bind, Except.bind, hs, hd, Bool.not_true, Bool.false_eq_true, if_false, goPanic] at h
      cases h
  · intro hh
    obtain ⟨w', e, h, -⟩ := C41_hook_errors_ignored_partial srv w c s hi hse hs hp hh
    exact ⟨w', e, h⟩

/-- C41, non-vacuity: a panicking hook, and a session of two connections. The first closure returns, as the hook is not
called, and the second does not. -/
example :
    let srv : Server Net Nat := { sessServer 0 with
      hooks := { sessHooks with onSessionClosed := fun u _ => (u, .panicked "database is down") } }
    ∃ w1 w2 s w3 e, handleConnection srv sessStart 1 0 [.data [32, 0,0,0,0,0,0,0,1, 1]] = .ok w1 ∧
      handleConnection srv w1 2 0 [.data [32, 0,0,0,0,0,0,0,1, 1]] = .ok w2 ∧
      (w2.conns 1).session = some s ∧ (w2.conns 2).session = some s ∧ w2.net.pending 1 = [] ∧
      sessionConnectionsNum w2 s.key = 2 ∧ closeSession srv w2 1 = .ok (w3, e) ∧ w3.net.pending 2 = [] ∧
      (w3.conns 2).session = some s ∧ sessionConnectionsNum w3 s.key = 1 ∧
      closeSession srv w3 2 = goPanic "nil pointer dereference in recovery from session closure hook panic" :=
  ⟨_, _, _, _, _, rfl, rfl, rfl, rfl, rfl, rfl, rfl, rfl, rfl, rfl, rfl⟩

/-! ## C42 -/

namespace Spec

/-- The session with this key has as many connections as allowed. -/
def Full (srv : Server ν υ) (w : World ν υ) (key : Bytes) : Prop :=
  srv.maxConns > 0 ∧ ∃ n : Nat, sessionConnectionsNum w key = n ∧ srv.maxConns ≤ n

/-- What is sent of a found session. -/
def foundSession (key : Bytes) (r : Lookup) : Session :=
  { key := key, creation := r.creation, lastLookup := r.lastLookup, info := r.info }

/-- The outcomes of a restore request with this key and identifier: the reply, and the session which the
connection has afterwards, `none` if that is the one from before. -/
inductive RestoreOutcome (srv : Server ν υ) (w : World ν υ) (key ident : Bytes) : Bytes → Option Session → Prop
  | disabled : srv.sessionsEnabled = false → RestoreOutcome srv w key ident (5 :: ident) none
  | full : srv.sessionsEnabled = true → Full srv w key → RestoreOutcome srv w key ident (4 :: ident) none
  | lookupFailed (e : Err) : srv.sessionsEnabled = true → ¬ Full srv w key →
      (srv.hooks.onSessionLookup w.user key).2 = .error e → RestoreOutcome srv w key ident (2 :: ident) none
  | notFound : srv.sessionsEnabled = true → ¬ Full srv w key →
      (srv.hooks.onSessionLookup w.user key).2 = .ok none → RestoreOutcome srv w key ident (3 :: ident) none
  | notEncodable (r : Lookup) (e : Err) : srv.sessionsEnabled = true → ¬ Full srv w key →
      (srv.hooks.onSessionLookup w.user key).2 = .ok (some r) → srv.hooks.marshal (foundSession key r) = .error e →
      RestoreOutcome srv w key ident (2 :: ident) none
  | restored (r : Lookup) (json : Bytes) : srv.sessionsEnabled = true → ¬ Full srv w key →
      (srv.hooks.onSessionLookup w.user key).2 = .ok (some r) → srv.hooks.marshal (foundSession key r) = .ok json →
      RestoreOutcome srv w key ident (192 :: (ident ++ json))
        (some { foundSession key r with info := r.info.bind srv.hooks.infoParser })

end Spec

theorem full_iff {srv : Server ν υ} {w : World ν υ} {key : Bytes} : tooMany srv w key ↔ Full srv w key := by
  unfold tooMany Full
  constructor
  · rintro ⟨h1, h2, h3⟩
    exact ⟨h2, (sessionConnectionsNum w key).toNat, by omega, by omega⟩
  · rintro ⟨h1, n, h2, h3⟩
    rw [h2]
    exact ⟨by omega, h1, by omega⟩

/-- C42: a restore request is answered by the documented reply, and the connection's session is afterwards the
one from before, or exactly in the case of success the restored one, under whose key the connection is then
counted. No other connection's session changes. -/
theorem C42_restore_outcomes (srv : Server Net υ) (w w' : World Net υ) (c : ConnId) (bs : Bytes) (v : View)
    (ha : Asked srv w c bs v) (ht : v.msgType = 32) (hsd : w.shutdown = false)
    (h : serve srv w c [.data bs] = .ok w') :
    ∃ reply after, RestoreOutcome srv w v.payload v.ident reply after ∧
      replies (w'.net.out c) = replies (w.net.out c) ++ [reply] ∧
      (after = none → (w'.conns c).session = (w.conns c).session ∧ w'.registry = w.registry) ∧
      (∀ s, after = some s → (w'.conns c).session = some s ∧ ∃ set, w'.registry.get v.payload = some set ∧ c ∈ set) ∧
      ∀ i, i ≠ c → (w'.conns i).session = (w.conns i).session := by
  obtain ⟨m, h1, h2, h3, _, h4⟩ := serve_grammar (srv := srv) (w := w) (c := c) (rest := []) ha.grammar ha.fits
  rw [h4] at h
  obtain ⟨w1, h5, h⟩ := bind_ok h
  simp only [serve, Except.ok.injEq] at h
  subst h
  have et : m.msgType = v.msgType := by rw [← h1]; rfl
  have ep : m.payload.data.view m.buf = v.payload := by rw [← h1]; rfl
  have hq : m.requiresReply = true := by
    rw [requiresReply_iff, et]
    exact ha.asks
  have hid : m.identifierBytes = v.ident := by
    apply h3
    unfold noIdentTypes
    intro hn
    rw [ht] at hn
    revert hn; decide
  have h6 := (handleMessage_session ha.active hsd h5).1 (by rw [et, ht])
  have hsm := Same.registered w c
  have hfull : tooMany srv (registered w c) v.payload ↔ Full srv w v.payload := by
    rw [full_iff]; rfl
  obtain ⟨w2, w3, hk, hd, rfl⟩ := handleSessionRestore_ok h6
  rw [ep] at hk
  have fail : ∀ (wl : World Net υ) (re : ReplyErr), wl.net = w.net → Same w { wl with trace := w.trace, user := w.user } →
      (wl.conns c).isActive = true → errorFor re = none →
      failMsg srv wl c m re = .ok w2 →
      replies ((releaseMsg w3).net.out c) = replies (w.net.out c) ++ [specialFor re :: v.ident] ∧
      (∀ i, ((releaseMsg w3).conns i).session = (w.conns i).session) ∧ (releaseMsg w3).registry = w.registry := by
    intro wl re hn hs hact he hf
    obtain ⟨r1, hcn⟩ := failMsg_replied ha.ideal (w := wl) (by rw [hn]; exact ha.clean) (by rw [hn]; exact ha.connected) hq he hf
    have r2 := (r1.trans (deregisterHandler_replied ha.ideal r1.pending hd)).here
    have s1 := Same.failMsg hf
    have s2 := Same.deregisterHandler (by rw [hcn]; exact hact) hd
    rw [hn, hid] at r2
    refine ⟨r2, fun i => ?_, ?_⟩
    · show (w3.conns i).session = _
      rw [s2.session, s1.session]; exact hs.session i
    · show w3.registry = _
      rw [s2.registry, s1.registry]; exact hs.registry
  have hactR : ((registered w c).conns c).isActive = true := by rw [hsm.active]; exact ha.active
  have hSl : Same w { lookedUp srv (registered w c) v.payload with trace := w.trace, user := w.user } :=
    ⟨rfl, hsm.session, hsm.active, rfl, rfl⟩
  have hSr : Same w { registered w c with trace := w.trace, user := w.user } :=
    ⟨rfl, hsm.session, hsm.active, rfl, rfl⟩
  rcases hk with ⟨hse, hf⟩ | ⟨hse, hfu, hf⟩ | ⟨hse, hfu, ⟨e, hl⟩, hf⟩ | ⟨hse, hfu, hl, hf⟩ | ⟨r, hse, hfu, hl, ⟨e, hm⟩, hf⟩ |
    ⟨r, encoded, w1, hse, hfu, hl, hm, hr, hf⟩
  · obtain ⟨a, b, d⟩ := fail (registered w c) _ rfl hSr hactR rfl hf
    exact ⟨_, none, .disabled hse, a, fun _ => ⟨b c, d⟩, by simp, fun i _ => b i⟩
  · obtain ⟨a, b, d⟩ := fail (registered w c) _ rfl hSr hactR rfl hf
    exact ⟨_, none, .full hse (hfull.mp hfu), a, fun _ => ⟨b c, d⟩, by simp, fun i _ => b i⟩
  · obtain ⟨a, b, d⟩ := fail (lookedUp srv (registered w c) v.payload) _ rfl hSl hactR rfl hf
    exact ⟨_, none, .lookupFailed e hse (fun hx => hfu (hfull.mpr hx)) hl, a, fun _ => ⟨b c, d⟩, by simp, fun i _ => b i⟩
  · obtain ⟨a, b, d⟩ := fail (lookedUp srv (registered w c) v.payload) _ rfl hSl hactR rfl hf
    exact ⟨_, none, .notFound hse (fun hx => hfu (hfull.mpr hx)) hl, a, fun _ => ⟨b c, d⟩, by simp, fun i _ => b i⟩
  · obtain ⟨a, b, d⟩ := fail (lookedUp srv (registered w c) v.payload) _ rfl hSl hactR rfl hf
    exact ⟨_, none, .notEncodable r e hse (fun hx => hfu (hfull.mpr hx)) hl hm, a, fun _ => ⟨b c, d⟩, by simp, fun i _ => b i⟩
  · obtain ⟨s, hs, hw1, he⟩ := register_ok hr
    have hs' : some (restored srv.hooks v.payload r) = some s := by
      rw [← hs]; simp [setSession, World.upd]
    cases hs'
    have hn : w1.net = w.net := by rw [hw1]; rfl
    obtain ⟨r1, _, hcn⟩ := fulfillMsg_replied ha.ideal (w := w1) (by rw [hn]; exact ha.clean) (by rw [hn]; exact ha.connected) hf
    have r1 := r1 (by simp [WriterCall.Valid, encUtf8])
    have r2 := (r1.trans (deregisterHandler_replied ha.ideal r1.pending hd)).here
    have hact : (w2.conns c).isActive = true := by
      rw [hcn, hw1]
      have : ((setSession (lookedUp srv (registered w c) v.payload) c (some (restored srv.hooks v.payload r))).conns c).isActive =
        ((registered w c).conns c).isActive := by simp [setSession, World.upd, lookedUp, World.log]
      exact this.trans hactR
    have s2 := Same.deregisterHandler hact hd
    have s1 := Same.fulfillMsg hf
    have es : ∀ i, ((releaseMsg w3).conns i).session =
        if i = c then some (restored srv.hooks v.payload r) else (w.conns i).session := by
      intro i
      show (w3.conns i).session = _
      rw [s2.session, s1.session, hw1]
      by_cases hi : i = c
      · subst hi; simp [setSession, World.upd]
      · have := hsm.session i
        simp only [setSession, World.upd, hi, if_false]
        exact this
    refine ⟨_, _, .restored r encoded hse (fun hx => hfu (hfull.mpr hx)) hl hm, ?_, by simp, ?_, ?_⟩
    · rw [hn, hid] at r2
      simpa [WriterCall.layout, encUtf8, releaseMsg, World.log] using r2
    · intro s' hs'
      cases hs'
      refine ⟨by rw [es c, if_pos rfl]; rfl, ?_⟩
      have hreg : (releaseMsg w3).registry =
          (registryAdd srv.maxConns w.registry (restored srv.hooks v.payload r).key c).1 := by
        show w3.registry = _
        rw [s2.registry, s1.registry, hw1]; rfl
      have he' : (registryAdd srv.maxConns w.registry v.payload c).2 = none := he.symm
      rw [hreg]
      show ∃ set, GoMap.get (registryAdd srv.maxConns w.registry v.payload c).1 v.payload = some set ∧ c ∈ set
      unfold registryAdd at he' ⊢
      cases hg : w.registry.get v.payload with
      | none =>
        simp only
        exact ⟨[c], by rw [GoMap.get_set]; simp, by simp⟩
      | some set =>
        rw [hg] at he'
        simp only at he' ⊢
        split_ifs at he' with hx
        rw [if_neg hx]
        exact ⟨setInsert set c, by rw [GoMap.get_set]; simp, by rw [mem_setInsert]; exact .inl rfl⟩
    · intro i hi
      rw [es i, if_neg hi]

/-- C42, non-vacuity: a session is found; another is not; a third has its only connection already. -/
example : ∃ w1 w2, handleConnection (sessServer 1) sessStart 1 0
      [.data [32, 0,0,0,0,0,0,0,1, 9,9,9,9,9,9], .data [32, 0,0,0,0,0,0,0,2, 7]] = .ok w1 ∧
    handleConnection (sessServer 1) w1 2 0 [.data [32, 0,0,0,0,0,0,0,3, 7]] = .ok w2 ∧
    w2.net.out 1 = [[23,2,0,96,234,0,0,64,0,0,0], [3, 0,0,0,0,0,0,0,1], [192, 0,0,0,0,0,0,0,2, 123, 7]] ∧
    w2.net.out 2 = [[23,2,0,96,234,0,0,64,0,0,0], [4, 0,0,0,0,0,0,0,3]] := ⟨_, _, rfl, rfl, rfl, rfl⟩

end Webwire
