import Verif.Model.Whole
import Verif.Props.Accounts
import Verif.Props.EndToEnd

/-! Helper lemmas about clients and the server together: what happened on the server, and what was sent. -/

set_option autoImplicit false

namespace Webwire.Life

/-- Events that have to do with what is on the wire. -/
def LEv.wire : LEv → Bool
  | .arrived .. | .finish .. | .refused .. => true
  | _ => false

/-- The events of this kind of a step. -/
def wireEvs : Label → List LEv
  | .thread (.reading c) ch => match ch.msg with
    | some m => [.arrived c m]
    | none => []
  | .thread (.running c m _) _ => [.finish c m]
  | .thread (.refusing c m) ch => if ch.writerOk then [.refused c m] else []
  | _ => []

theorem Acts.wire {g g' : G} {ch : Choice} {pc : PC} {pcs : List PC} (h : Acts g ch pc g' pcs) :
    g'.log.filter LEv.wire = g.log.filter LEv.wire ++ wireEvs (.thread pc ch) := by
  cases h <;> simp_all [G.ev, G.upd, G.crash, unlinked, wireEvs, LEv.wire, List.filter_append]

theorem Step.wire {s s' : State} {l : Label} (h : Step s l s') :
    s'.g.log.filter LEv.wire = s.g.log.filter LEv.wire ++ wireEvs l := by
  cases h with
  | thread g g' pre post pcs pc ch hc hact => exact (acts_of_act hact).wire
  | connect g ts c limit hc hu => simp [wireEvs]
  | close g ts c hc hu => simp [wireEvs]
  | shutdown g ts hc => simp [wireEvs]

theorem Step.wire_count {s s' : State} {l : Label} (h : Step s l s') (e : LEv) (he : e.wire = true) :
    s'.g.log.count e = s.g.log.count e + (wireEvs l).count e := by
  have := congrArg (List.count e) h.wire
  rwa [List.count_append, List.count_filter he, List.count_filter he] at this

theorem Step.wire_mem {s s' : State} {l : Label} (h : Step s l s') (e : LEv) (he : e.wire = true) :
    e ∈ s'.g.log ↔ e ∈ s.g.log ∨ e ∈ wireEvs l := by
  have h1 := congrArg (e ∈ ·) h.wire
  simpa [he] using h1

theorem Step.thread_mem {s s' : State} {pc : PC} {ch : Choice} (h : Step s (.thread pc ch) s') : pc ∈ s.threads := by
  cases h; simp

end Webwire.Life

namespace Webwire.Req

variable {R : Type}

theorem Acts.keeps {g g' : G R} {pc : PC R} {pcs : List (PC R)} (h : Acts g pc g' pcs) {r : Nat} {q : Request R}
    (hq : g.reqs[r]? = some q) : ∃ q', g'.reqs[r]? = some q' ∧ q'.ident = q.ident := by
  have hlt := (List.getElem?_eq_some_iff.mp hq).1
  have hlen : g.reqs.length ≤ g'.reqs.length := by
    cases h <;> simp [G.ev, G.deregister]
  obtain ⟨q0, h0, h1⟩ := h.idents hlt (List.getElem?_eq_getElem (Nat.lt_of_lt_of_le hlt hlen))
  rw [hq] at h0
  cases h0
  exact ⟨_, List.getElem?_eq_getElem _, h1.symm⟩

theorem Step.keeps {s s' : State R} {l : Label R} (h : Step s l s') {r : Nat} {q : Request R}
    (hq : s.g.reqs[r]? = some q) : ∃ q', s'.g.reqs[r]? = some q' ∧ q'.ident = q.ident := by
  cases h with
  | thread g g' pre post pcs pc b hact => exact (acts_of_act hact).keeps hq
  | create g ts => exact ⟨q, hq, rfl⟩
  | call g ts ident rep => exact ⟨q, hq, rfl⟩
  | await g ts r hr => exact ⟨q, hq, rfl⟩

/-- What `Fulfill` and `Fail` were called with, in order. -/
def toldOf (log : List (Ev R)) : List (Bytes × R) := log.filterMap fun | .called _ k p => some (k, p) | _ => none

theorem Step.told {s s' : State R} {l : Label R} (h : Step s l s') :
    toldOf s'.g.log = toldOf s.g.log ++ match l with | .call k p => [(k, p)] | _ => [] := by
  cases h with
  | thread g g' pre post pcs pc b hact =>
    obtain ⟨es, he, hc⟩ := (acts_of_act hact).log
    simp only [he, toldOf, List.filterMap_append, List.append_right_inj]
    rw [List.filterMap_eq_nil_iff]
    intro e hm
    cases e <;> first | rfl | (have := hc _ hm; simp [Ev.calls] at this)
  | create g ts => simp [G.ev, toldOf]
  | call g ts ident rep => simp [G.ev, toldOf]
  | await g ts r hr => simp

end Webwire.Req

namespace Webwire.Whole
open Spec

variable {cfg : Cfg} {s s' : State}

@[simp] theorem put_self {α : Type} (f : ConnId → α) (c : ConnId) (x : α) : put f c x c = x := by simp [put]

theorem put_ne {α : Type} (f : ConnId → α) {c i : ConnId} (x : α) (h : i ≠ c) : put f c x i = f i := by simp [put, h]

/-- The parts of the state that evolve on their own. -/
structure Evolves (s s' : State) : Prop where
  srv : s'.srv = s.srv ∨ ∃ l, Life.Step s.srv l s'.srv
  cl : ∀ c, s'.clients c = s.clients c ∨ ∃ l, Req.Step (s.clients c) l (s'.clients c)

theorem Step.evolves {l : Label} (h : Step cfg s l s') : Evolves s s' := by
  cases h with
  | client c l cl _ hs =>
    refine ⟨.inl rfl, fun i => ?_⟩
    by_cases hi : i = c
    · subst hi; right; exact ⟨l, by simpa using hs⟩
    · exact .inl (put_ne _ _ hi)
  | told c y k rep cl hy ht hs =>
    refine ⟨.inl rfl, fun i => ?_⟩
    by_cases hi : i = c
    · subst hi; right; exact ⟨_, by simpa using hs⟩
    · exact .inl (put_ne _ _ hi)
  | send => exact ⟨.inl rfl, fun _ => .inl rfl⟩
  | other => exact ⟨.inl rfl, fun _ => .inl rfl⟩
  | server l srv _ hs => exact ⟨.inr ⟨l, hs⟩, fun _ => .inl rfl⟩
  | receive c x ok srv _ hs => exact ⟨.inr ⟨_, hs⟩, fun _ => .inl rfl⟩
  | finish c n inl up ch out x m bs srv _ _ hs => exact ⟨.inr ⟨_, hs⟩, fun _ => .inl rfl⟩
  | refuse c lm x m bs ch srv _ _ _ hs => exact ⟨.inr ⟨_, hs⟩, fun _ => .inl rfl⟩
  | push => exact ⟨.inl rfl, fun _ => .inl rfl⟩
  | skip => exact ⟨.inl rfl, fun _ => .inl rfl⟩

theorem Reachable.srv (h : Reachable cfg s) : Life.Reachable s.srv := by
  induction h with
  | start => exact .start
  | step s l s' _ hs ih =>
    rcases hs.evolves.srv with e | ⟨l, hl⟩
    · rw [e]; exact ih
    · exact .step _ l _ ih trivial hl

theorem Reachable.client (h : Reachable cfg s) (c : ConnId) : Req.Reachable (s.clients c) := by
  induction h with
  | start => exact .start
  | step s l s' _ hs ih =>
    rcases hs.evolves.cl c with e | ⟨l, hl⟩
    · rw [e]; exact ih
    · exact .step _ l _ ih trivial hl

theorem Evolves.keeps (h : Evolves s s') {c : ConnId} {r : Nat} {q : Req.Request Rep}
    (hq : (s.clients c).g.reqs[r]? = some q) : ∃ q', (s'.clients c).g.reqs[r]? = some q' ∧ q'.ident = q.ident := by
  rcases h.cl c with e | ⟨l, hl⟩
  · exact ⟨q, by rw [e]; exact hq, rfl⟩
  · exact hl.keeps hq

/-- What a request says. -/
def Ask.view (ident : Bytes) : Ask → View
  | .request name enc payload => { msgType := requestType enc, ident := ident, name := name, payload := payload }
  | .restore key => { msgType := 32, ident := ident, payload := key }
  | .close => { msgType := 31, ident := ident }

theorem ask_grammar {ask : Ask} {ident : Bytes} {safe : Bool} {st : Bytes × List Bytes} {log : List Event} (hid : ident.length = 8)
    (hk : ask ≠ .restore []) (hw : ask.write (observed pipe) (([], []), []) ident safe = .ok ((st, log), none)) :
    Grammar (written log) (ask.view ident) := by
  cases ask with
  | request name enc payload =>
    obtain ⟨hb, hwr⟩ := request_accepted _ _ _ _ _ _ _ _ _ hw
    rw [hwr]
    exact request_grammar ident name payload enc safe hid hb
  | restore key =>
    obtain ⟨parts, hp, hf⟩ := writeMsgNameless_good (observed pipe) (([], []), []) 32 ident key (by simp)
    have hw' : runParts (observed pipe) (([], []), []) parts = .ok ((st, log), none) := hp ▸ hw
    have hg := Grammar.restoreSession ident key hid (by rintro rfl; exact hk rfl)
    rwa [← hf, ← runParts_written _ _ _ _ _ hw'] at hg
  | close =>
    obtain ⟨parts, hp, hf⟩ := writeMsgNameless_good (observed pipe) (([], []), []) 31 ident [] (by simp)
    have hw' : runParts (observed pipe) (([], []), []) parts = .ok ((st, log), none) := hp ▸ hw
    have hg := Grammar.closeSession ident hid
    rw [List.append_nil] at hf
    rwa [← hf, ← runParts_written _ _ _ _ _ hw'] at hg

/-- Which messages the step adds to what the client sent. -/
theorem Step.sent {l : Label} (h : Step cfg s l s') (c : ConnId) : s'.sent c = s.sent c ∨ ∃ x, s'.sent c = s.sent c ++ [x] ∧
    ((∃ r q ask safe st log, x = ⟨some ⟨r, ask⟩, written log⟩ ∧
        (s.clients c).g.reqs[r]? = some q ∧ (∀ x ∈ s.sent c, ∀ k, x.req = some k → k.r ≠ r) ∧ ask ≠ .restore [] ∧
        Ask.write (observed pipe) (([], []), []) q.ident safe ask = .ok ((st, log), none)) ∨
      (∃ bs, x = ⟨none, bs⟩ ∧ ∀ m, readMsg cfg.srv.bufferSize.toNat bs = some m → m.requiresReply = false)) := by
  cases h with
  | send c' r q ask safe st log hq hn hk hw =>
    by_cases hi : c = c'
    · subst hi
      exact .inr ⟨_, by simp, .inl ⟨r, q, ask, safe, st, log, rfl, hq, hn, hk, hw⟩⟩
    · exact .inl (put_ne _ _ hi)
  | other c' bs hb =>
    by_cases hi : c = c'
    · subst hi
      exact .inr ⟨_, by simp, .inr ⟨bs, rfl, hb⟩⟩
    · exact .inl (put_ne _ _ hi)
  | _ => exact .inl rfl

/-- What is sent: requests of the request manager, each once, and messages that ask for no reply. -/
structure SentInv (cfg : Cfg) (s : State) : Prop where
  req : ∀ (c : ConnId) (n : Nat) (x : Sent) (k : Call), (s.sent c)[n]? = some x → x.req = some k → ∃ q : Req.Request Rep, (s.clients c).g.reqs[k.r]? = some q ∧
    Grammar x.bytes (k.ask.view q.ident)
  once : ∀ (c : ConnId) (i j : Nat) (x y : Sent) (k l : Call), (s.sent c)[i]? = some x → (s.sent c)[j]? = some y → x.req = some k → y.req = some l →
    k.r = l.r → i = j
  quiet : ∀ (c : ConnId) (n : Nat) (x : Sent) (m : Msg), (s.sent c)[n]? = some x → x.req = none → readMsg cfg.srv.bufferSize.toNat x.bytes = some m →
    m.requiresReply = false

theorem getElem?_snoc {α : Type} {l : List α} {a b : α} {n : Nat} (h : (l ++ [a])[n]? = some b) :
    l[n]? = some b ∨ (n = l.length ∧ b = a) := by
  rcases Nat.lt_trichotomy n l.length with hlt | rfl | hgt
  · left; rwa [List.getElem?_append_left hlt] at h
  · right; simpa using h.symm
  · rw [List.getElem?_eq_none (by simp; omega)] at h; cases h

theorem Reachable.sentInv (h : Reachable cfg s) : SentInv cfg s := by
  induction h with
  | start => exact ⟨by simp, by simp, by simp⟩
  | step s l s' hr hs ih =>
    have hreq : ∀ (c : ConnId) (n : Nat) (x : Sent) (k : Call), (s.sent c)[n]? = some x → x.req = some k → ∃ q : Req.Request Rep, (s'.clients c).g.reqs[k.r]? = some q ∧
        Grammar x.bytes (k.ask.view q.ident) := by
      intro c n x k hx hk
      obtain ⟨q, hq, hg⟩ := ih.req c n x k hx hk
      obtain ⟨q', hq', hi⟩ := hs.evolves.keeps hq
      exact ⟨q', hq', by rw [hi]; exact hg⟩
    refine ⟨fun c => ?_, fun c => ?_, fun c => ?_⟩
    · rcases hs.sent c with e | ⟨x0, e, h0⟩
      · rw [e]; exact hreq c
      · intro n x k hx hk
        rw [e] at hx
        rcases getElem?_snoc hx with hx | ⟨_, rfl⟩
        · exact hreq c n x k hx hk
        · rcases h0 with ⟨r, q, ask, safe, st, log, rfl, hq, hn, hr0, hw⟩ | ⟨bs, rfl, _⟩
          · cases hk
            have hg := ask_grammar (req_ident_length (hr.client c) hq) hr0 hw
            obtain ⟨q', hq', hi⟩ := hs.evolves.keeps hq
            exact ⟨q', hq', by rw [hi]; exact hg⟩
          · cases hk
    · rcases hs.sent c with e | ⟨x0, e, h0⟩
      · rw [e]; exact ih.once c
      · intro i j x y k l hx hy hk hl hkl
        rw [e] at hx hy
        have hnew : ∀ z k', z ∈ s.sent c → z.req = some k' → ∀ k0, x0.req = some k0 → k'.r ≠ k0.r := by
          intro z k' hz hk' k0 hk0
          rcases h0 with ⟨r, q, ask, safe, st, log, rfl, hq, hn, hr0, hw⟩ | ⟨bs, rfl, _⟩
          · cases hk0; exact hn z hz k' hk'
          · cases hk0
        rcases getElem?_snoc hx with hx' | ⟨h1, rfl⟩ <;> rcases getElem?_snoc hy with hy' | ⟨h2, rfl⟩
        · exact ih.once c i j x y k l hx' hy' hk hl hkl
        · exact absurd hkl (hnew x k (List.mem_of_getElem? hx') hk l hl)
        · exact absurd hkl.symm (hnew y l (List.mem_of_getElem? hy') hl k hk)
        · rw [h1, h2]
    · rcases hs.sent c with e | ⟨x0, e, h0⟩
      · rw [e]; exact ih.quiet c
      · intro n x m hx hk
        rw [e] at hx
        rcases getElem?_snoc hx with hx | ⟨_, rfl⟩
        · exact ih.quiet c n x m hx hk
        · rcases h0 with ⟨r, q, ask, safe, st, log, rfl, hq, hn, hr0, hw⟩ | ⟨bs, rfl, hb⟩
          · cases hk
          · exact hb m

theorem Step.sent_mono {l : Label} (h : Step cfg s l s') {c : ConnId} {n : Nat} {x : Sent} (hx : (s.sent c)[n]? = some x) :
    (s'.sent c)[n]? = some x := by
  rcases h.sent c with e | ⟨x0, e, _⟩
  · rw [e]; exact hx
  · rw [e, List.getElem?_append_left (List.getElem?_eq_some_iff.mp hx).1]; exact hx

end Webwire.Whole
