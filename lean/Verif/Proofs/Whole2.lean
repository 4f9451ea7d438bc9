import Verif.Proofs.Whole

/-! Helper lemmas about clients and the server together: what the server reads and what it sends. -/

set_option autoImplicit false

namespace Webwire.Whole
open Spec

variable {cfg : Cfg} {s s' : State}

theorem Internal.evs {l : Life.Label} (h : Internal l) : ∀ e ∈ Life.wireEvs l, ∃ c m, e = .finish c m ∧ m.requiresReply = false := by
  intro e he
  cases l with
  | thread pc ch =>
    cases pc <;> simp_all [Internal, Life.wireEvs]
  | _ => simp [Life.wireEvs] at he

/-- What a step does to the server: nothing of interest here, or it reads a message, or ends a handler, or refuses a
request. -/
inductive Served (cfg : Cfg) (s s' : State) : Prop
  | quiet : (s'.srv = s.srv ∨ ∃ l, Life.Step s.srv l s'.srv ∧ ∀ e ∈ Life.wireEvs l, ∃ c m, e = .finish c m ∧ m.requiresReply = false) →
      s'.taken = s.taken → s'.results = s.results →
      (∀ c, s'.back c = s.back c ∨ ∃ b, s'.back c = s.back c ++ [(none, b)] ∧ ¬ IsReply b) → Served cfg s s'
  | receive (c : ConnId) (x : Sent) (ok : Bool) : (s.sent c)[s.taken c]? = some x →
      Life.Step s.srv (.thread (.reading c) ⟨incoming cfg (s.taken c) x.bytes, ok⟩) s'.srv →
      s'.taken = put s.taken c (s.taken c + 1) → s'.sent = s.sent → s'.results = s.results → s'.back = s.back → Served cfg s s'
  | finish (c : ConnId) (n : Nat) (inl up : Bool) (ch : Life.Choice) (out : Out) (x : Sent) (m : Msg)
      (bs : List Bytes) : (s.sent c)[n]? = some x → readMsg cfg.srv.bufferSize.toNat x.bytes = some m →
      Life.Step s.srv (.thread (.running c ⟨out.kind, n⟩ inl) ch) s'.srv → out.fits cfg.srv.sessionsEnabled m.msgType = true → answers cfg c m out up = .ok bs →
      s'.taken = s.taken → s'.sent = s.sent → s'.results = s.results ++ [⟨c, n, m, out, up⟩] →
      s'.back = put s.back c (s.back c ++ bs.map fun b => (some n, b)) → Served cfg s s'
  | refuse (c : ConnId) (lm : Life.LMsg) (x : Sent) (m : Msg) (bs : List Bytes) (ch : Life.Choice) :
      (s.sent c)[lm.id]? = some x → readMsg cfg.srv.bufferSize.toNat x.bytes = some m → ch.writerOk = true →
      Life.Step s.srv (.thread (.refusing c lm) ch) s'.srv → refusal cfg c m = .ok bs →
      s'.taken = s.taken → s'.sent = s.sent → s'.results = s.results →
      s'.back = put s.back c (s.back c ++ bs.map fun b => (some lm.id, b)) → Served cfg s s'

theorem Step.served {l : Label} (h : Step cfg s l s') : Served cfg s s' := by
  cases h with
  | client c l cl _ hs => exact .quiet (.inl rfl) rfl rfl fun _ => .inl rfl
  | told c y k rep cl hy ht hs => exact .quiet (.inl rfl) rfl rfl fun _ => .inl rfl
  | send => exact .quiet (.inl rfl) rfl rfl fun _ => .inl rfl
  | other => exact .quiet (.inl rfl) rfl rfl fun _ => .inl rfl
  | skip => exact .quiet (.inl rfl) rfl rfl fun _ => .inl rfl
  | server l srv hq hs => exact .quiet (.inr ⟨l, hs, hq.evs⟩) rfl rfl fun _ => .inl rfl
  | receive c x ok srv hx hs => exact .receive c x ok hx hs rfl rfl rfl rfl
  | finish c n inl up ch out x m bs srv hx hm hs hfit hb => exact .finish c n inl up ch out x m bs hx hm hs hfit hb rfl rfl rfl rfl
  | refuse c lm x m bs ch srv hx hm ho hs hb => exact .refuse c lm x m bs ch hx hm ho hs hb rfl rfl rfl rfl
  | push c b hb =>
    refine .quiet (.inl rfl) rfl rfl fun i => ?_
    by_cases hi : i = c
    · subst hi; exact .inr ⟨b, by simp, hb⟩
    · exact .inl (put_ne _ _ hi)

theorem incoming_id {n : Nat} {bs : Bytes} {lm : Life.LMsg} (h : incoming cfg n bs = some lm) : lm.id = n := by
  simp only [incoming, Option.map_eq_some_iff] at h
  obtain ⟨m, _, rfl⟩ := h
  rfl

/-- What arrived is what was sent, as far as it was read, and each message once. -/
structure ArrInv (cfg : Cfg) (s : State) : Prop where
  le : ∀ c, s.taken c ≤ (s.sent c).length
  once : ∀ c lm, s.srv.g.log.count (.arrived c lm) ≤ 1
  iff : ∀ c (lm : Life.LMsg), .arrived c lm ∈ s.srv.g.log ↔
    lm.id < s.taken c ∧ ∃ x : Sent, (s.sent c)[lm.id]? = some x ∧ incoming cfg lm.id x.bytes = some lm

theorem ArrInv.same (h : ArrInv cfg s) {l : Label} (hs : Step cfg s l s') (ht : s'.taken = s.taken)
    (he : ∀ c lm, s'.srv.g.log.count (.arrived c lm) = s.srv.g.log.count (.arrived c lm)) : ArrInv cfg s' := by
  refine ⟨fun c => ?_, fun c lm => by rw [he]; exact h.once c lm, fun c lm => ?_⟩
  · rw [ht]
    refine Nat.le_trans (h.le c) ?_
    rcases hs.sent c with e | ⟨x, e, _⟩ <;> rw [e] <;> simp
  · rw [← List.count_pos_iff, he, List.count_pos_iff, h.iff, ht]
    refine and_congr_right fun hlt => ?_
    have hl := Nat.lt_of_lt_of_le hlt (h.le c)
    have : (s'.sent c)[lm.id]? = (s.sent c)[lm.id]? := by
      rw [List.getElem?_eq_getElem hl]; exact hs.sent_mono (List.getElem?_eq_getElem hl)
    rw [this]

theorem count_no_arrived {l : List Life.LEv} {c : ConnId} {lm : Life.LMsg} (h : ∀ e ∈ l, ∃ c m, e = .finish c m ∧ m.requiresReply = false) :
    l.count (.arrived c lm) = 0 := by
  rw [List.count_eq_zero]
  intro hm
  obtain ⟨_, _, h, _⟩ := h _ hm
  cases h

theorem Reachable.arrInv (h : Reachable cfg s) : ArrInv cfg s := by
  induction h with
  | start => exact ⟨by simp, by simp, by simp⟩
  | step s l s' hr hs ih =>
    cases hs.served with
    | quiet hsrv ht _ _ =>
      refine ih.same hs ht fun c lm => ?_
      rcases hsrv with e | ⟨l, hl, hq⟩
      · rw [e]
      · rw [hl.wire_count _ rfl, count_no_arrived hq]; rfl
    | finish c n inl up ch out x m bs hx hm hl hfit hb ht =>
      refine ih.same hs ht fun c lm => ?_
      rw [hl.wire_count _ rfl]; simp [Life.wireEvs]
    | refuse c lm x m bs ch hx hm ho hl hb ht =>
      refine ih.same hs ht fun c lm => ?_
      rw [hl.wire_count _ rfl]; simp [Life.wireEvs, ho]
    | receive c x ok hx hl ht hsent =>
      have hlen := (List.getElem?_eq_some_iff.mp hx).1
      have hw : Life.wireEvs (.thread (.reading c) ⟨incoming cfg (s.taken c) x.bytes, ok⟩) =
          match incoming cfg (s.taken c) x.bytes with | some m => [.arrived c m] | none => [] := rfl
      refine ⟨fun i => ?_, fun i lm => ?_, fun i lm => ?_⟩
      · rw [ht, hsent]
        by_cases hi : i = c
        · subst hi; simp; omega
        · rw [put_ne _ _ hi]; exact ih.le i
      · rw [hl.wire_count _ rfl, hw]
        cases hin : incoming cfg (s.taken c) x.bytes with
        | none => simpa using ih.once i lm
        | some m =>
          have hid := incoming_id hin
          by_cases he : i = c ∧ lm = m
          · obtain ⟨rfl, rfl⟩ := he
            have : s.srv.g.log.count (.arrived i lm) = 0 := by
              rw [List.count_eq_zero, ih.iff]
              omega
            simp [this]
          · have : ([.arrived c m] : List Life.LEv).count (.arrived i lm) = 0 := by
              rw [List.count_eq_zero]
              simp only [List.mem_singleton, Life.LEv.arrived.injEq]
              exact he
            simpa [this] using ih.once i lm
      · rw [hl.wire_mem _ rfl, ih.iff, hw, ht, hsent]
        by_cases hi : i = c
        · subst hi
          rw [put_self]
          cases hin : incoming cfg (s.taken i) x.bytes with
          | none =>
            simp only [List.not_mem_nil, or_false]
            refine ⟨fun ⟨h1, h2⟩ => ⟨by omega, h2⟩, fun ⟨h1, y, hy, h2⟩ => ⟨?_, y, hy, h2⟩⟩
            rcases Nat.lt_succ_iff_lt_or_eq.mp h1 with h | h
            · exact h
            · rw [h] at hy h2
              rw [hx] at hy; cases hy
              rw [hin] at h2; cases h2
          | some m =>
            have hid := incoming_id hin
            simp only [List.mem_singleton, Life.LEv.arrived.injEq, true_and]
            constructor
            · rintro (⟨h1, h2⟩ | rfl)
              · exact ⟨by omega, h2⟩
              · exact ⟨by omega, x, by rw [hid]; exact hx, by rw [hid]; exact hin⟩
            · rintro ⟨h1, y, hy, h2⟩
              rcases Nat.lt_succ_iff_lt_or_eq.mp h1 with h | h
              · exact .inl ⟨h, y, hy, h2⟩
              · rw [h] at hy h2
                rw [hx] at hy; cases hy
                rw [hin] at h2; cases h2
                exact .inr rfl
        · rw [put_ne _ _ hi]
          have : Life.LEv.arrived i lm ∉ (match incoming cfg (s.taken c) x.bytes with
              | some m => [.arrived c m] | none => [] : List Life.LEv) := by
            split <;> simp [hi]
          simp [this]

/-- Only requests are worked on that the client's request manager made. -/
theorem kindOf_reply (m : Msg) : m.requiresReply = true ↔ kindOf m.msgType = .request ∨ kindOf m.msgType = .session := by
  unfold Msg.requiresReply kindOf
  simp only [MsgHeartbeat, MsgSignalBinary, MsgSignalUtf8, MsgSignalUtf16, MsgRequestBinary, MsgRequestUtf8,
    MsgRequestUtf16, MsgRequestRestoreSession, MsgRequestCloseSession]
  generalize m.msgType = t
  simp only [Bool.or_eq_true, beq_iff_eq]
  split_ifs <;> grind

end Webwire.Whole
