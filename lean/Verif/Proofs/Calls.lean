import Verif.Proofs.Roundtrip

/-! Helper lemmas: all writer calls uniformly. -/

set_option autoImplicit false

namespace Webwire
open Spec

variable {σ : Type}

theorem hasBadChar_iff (name : Bytes) : hasBadChar name = true ↔ ¬ ∀ c ∈ name, Printable c := by
  simp only [hasBadChar, List.any_eq_true, Bool.or_eq_true, decide_eq_true_eq, Printable]
  push Not
  constructor
  · rintro ⟨c, hc, h⟩
    refine ⟨c, hc, fun h1 => ?_⟩
    rcases h with h | h
    · have : c.toNat < 32 := h
      omega
    · have : 126 < c.toNat := h
      omega
  · rintro ⟨c, hc, h⟩
    refine ⟨c, hc, ?_⟩
    by_cases h1 : 32 ≤ c.toNat
    · right; show 126 < c.toNat; have := h h1; omega
    · left; show c.toNat < 32; omega

theorem pad_eq (enc : Encoding) (name : Bytes) : padFor enc name = pad enc name := by
  unfold padFor pad
  have : (enc = encUtf16 ∧ name.length % 2 ≠ 0) ↔ (enc = 2 ∧ name.length % 2 = 1) := by
    unfold encUtf16; constructor <;> rintro ⟨a, b⟩ <;> exact ⟨a, by omega⟩
  simp only [this]

theorem badRequest_iff (name : Bytes) (enc : Encoding) (payload : Bytes) (safe : Bool) (id : Bytes) :
    badRequest name enc payload safe ↔ ¬ (WriterCall.request id name enc payload safe).Valid := by
  unfold badRequest WriterCall.Valid
  rw [hasBadChar_iff]
  have : (name.length < 1 ∧ payload.length < 1) ↔ ¬ (name ≠ [] ∨ payload ≠ []) := by
    push Not; simp
  rw [this]
  have e : (enc = encUtf16) = (enc = 2) := rfl
  rw [e]
  have : name.length > 255 ↔ ¬ name.length ≤ 255 := by omega
  rw [this]
  tauto

theorem badSignal_iff (name : Bytes) (enc : Encoding) (payload : Bytes) (safe : Bool) :
    badSignal name enc payload safe ↔ ¬ (WriterCall.signal name enc payload safe).Valid := by
  unfold badSignal WriterCall.Valid
  rw [hasBadChar_iff]
  have e : (enc = encUtf16) = (enc = 2) := rfl
  rw [e]
  have : name.length > 255 ↔ ¬ name.length ≤ 255 := by omega
  rw [this]
  tauto

theorem badErrorReply_iff (id code text : Bytes) :
    badErrorReply code ↔ ¬ (WriterCall.errorReply id code text true).Valid := by
  unfold badErrorReply WriterCall.Valid
  rw [hasBadChar_iff]
  have : code.length > 255 ↔ ¬ code.length ≤ 255 := by omega
  rw [this]
  have : code.length < 1 ↔ ¬ code ≠ [] := by simp
  rw [this]
  tauto

theorem call_invalid (w : Writer σ) (s : σ) (c : WriterCall) (h : ¬ c.Valid) :
    ∃ err, c.run w s = closeWith w s err := by
  cases c with
  | request id name enc payload safe =>
    exact writeMsgRequest_bad _ _ _ _ _ _ _ ((badRequest_iff _ _ _ _ id).mpr h)
  | signal name enc payload safe => exact writeMsgSignal_bad _ _ _ _ _ _ ((badSignal_iff _ _ _ _).mpr h)
  | reply id enc payload =>
    refine writeMsgReply_bad _ _ _ _ _ ?_
    simp only [WriterCall.Valid] at h
    push Not at h
    exact h
  | errorReply id code text safe =>
    cases safe with
    | false => simp [WriterCall.Valid] at h
    | true => exact writeMsgReplyError_bad _ _ _ _ _ ((badErrorReply_iff id code text).mpr h)
  | special t id => exact writeMsgSpecial_bad _ _ _ _ h
  | _ => exact absurd trivial h

theorem call_valid (w : Writer σ) (s : σ) (c : WriterCall) (h : c.Valid) (hp : ¬ c.Panics) :
    ∃ parts, c.run w s = runParts w s parts ∧ parts.flatten = c.layout := by
  cases c with
  | request id name enc payload safe =>
    obtain ⟨parts, h1, h2⟩ := writeMsgRequest_good w s id name enc payload safe
      (fun hb => (badRequest_iff _ _ _ _ id).mp hb h)
    exact ⟨parts, h1, by rw [h2, pad_eq]; simp [WriterCall.layout, requestType]⟩
  | signal name enc payload safe =>
    obtain ⟨parts, h1, h2⟩ := writeMsgSignal_good w s name enc payload safe
      (fun hb => (badSignal_iff _ _ _ _).mp hb h)
    exact ⟨parts, h1, by rw [h2, pad_eq]; simp [WriterCall.layout, signalType]⟩
  | reply id enc payload =>
    obtain ⟨parts, h1, h2⟩ := writeMsgReply_good w s id enc payload
      (fun hb => hb.2 (h hb.1))
    exact ⟨parts, h1, by rw [h2]; simp [WriterCall.layout, replyType]⟩
  | errorReply id code text safe =>
    have hl : code.length ≤ 255 := by
      cases safe with
      | true => exact (h rfl).2.1
      | false => simpa [WriterCall.Panics] using hp
    obtain ⟨parts, h1, h2⟩ := writeMsgReplyError_good w s id code text safe
      (by rintro rfl hb; exact (badErrorReply_iff id code text).mp hb h) hl
    exact ⟨parts, h1, by rw [h2]; simp [WriterCall.layout]⟩
  | special t id => exact ⟨_, writeMsgSpecial_good _ _ _ _ h, by simp [WriterCall.layout]⟩
  | nameless t id payload =>
    have ht : t ∈ [31, 32] := by
      by_contra hc; exact hp hc
    obtain ⟨parts, h1, h2⟩ := writeMsgNameless_good w s t id payload ht
    exact ⟨parts, h1, h2⟩
  | heartbeat => exact ⟨[[33]], rfl, rfl⟩
  | sessionClosed => exact ⟨[[22]], rfl, rfl⟩
  | sessionCreated info => exact ⟨[[21], info], rfl, by simp [WriterCall.layout]⟩

theorem writeMsgReplyError_panics (w : Writer σ) (s s' : σ) (id code text : Bytes) (e : Option Err)
    (h : code.length > 255) (log : List Event) :
    writeMsgReplyError (observed w) (s, []) id code text false = .ok ((s', log), e) →
    ClosedOnce log ∧ e ≠ none := by
  intro hw
  unfold writeMsgReplyError at hw
  rw [if_neg (by simp), if_neg (by simp), if_neg (by simp)] at hw
  simp only [writePart, nameLenPart_panic _ (show 256 ≤ code.length by omega), bind, Except.bind, goPanic] at hw
  cases h1 : w.write s [MsgReplyError] with
  | error _ => simp [observed, h1, bind, Except.bind] at hw
  | ok r =>
    obtain ⟨s1, e1⟩ := r
    cases e1 with
    | some e1 =>
      simp only [observed, h1, bind, Except.bind, pure, Except.pure] at hw
      obtain ⟨⟨ok, rfl⟩, he⟩ := closeWith_log w _ _ _ _ _ _ hw
      exact ⟨⟨[], ok, .inr ⟨_, rfl⟩⟩, he⟩
    | none =>
      cases h2 : w.write s1 id with
      | error _ => simp [observed, h1, h2, bind, Except.bind, pure, Except.pure] at hw
      | ok r =>
        obtain ⟨s2, e2⟩ := r
        cases e2 with
        | none => simp [observed, h1, h2, bind, Except.bind, pure, Except.pure] at hw
        | some e2 =>
          simp only [observed, h1, h2, bind, Except.bind, pure, Except.pure] at hw
          obtain ⟨⟨ok, rfl⟩, he⟩ := closeWith_log w _ _ _ _ _ _ hw
          exact ⟨⟨[[MsgReplyError]], ok, .inr ⟨_, rfl⟩⟩, he⟩

theorem call_log (w : Writer σ) (s s' : σ) (c : WriterCall) (log : List Event) (e : Option Err)
    (h : c.run (observed w) (s, []) = .ok ((s', log), e)) :
    (¬ c.Valid → RefuseLog log e) ∧ (c.Valid → ¬ c.Panics → MsgLog c.layout log e) := by
  constructor
  · intro hv
    obtain ⟨err, he⟩ := call_invalid (observed w) (s, []) c hv
    rw [he] at h
    exact closeWith_log _ _ _ _ _ _ _ h
  · intro hv hp
    obtain ⟨parts, h1, h2⟩ := call_valid (observed w) (s, []) c hv hp
    rw [h1] at h
    obtain ⟨l, rfl, hl⟩ := runParts_log _ _ _ _ _ _ _ h
    rw [h2] at hl
    simpa using hl

theorem call_panics (w : Writer σ) (s s' : σ) (c : WriterCall) (log : List Event) (e : Option Err)
    (h : c.run (observed w) (s, []) = .ok ((s', log), e)) (hp : c.Panics) : ClosedOnce log ∧ e ≠ none := by
  cases c with
  | errorReply id code text safe =>
    obtain ⟨rfl, hl⟩ := hp
    exact writeMsgReplyError_panics w s s' id code text e hl log h
  | nameless t id payload =>
    exfalso
    simp only [WriterCall.Panics, List.mem_cons, List.not_mem_nil, or_false, not_or] at hp
    simp [WriterCall.run, writeMsgNamelessRequest, MsgRequestRestoreSession, MsgRequestCloseSession,
      hp.1, hp.2, goPanic] at h
  | _ => exact absurd hp id

theorem call_success (w : Writer σ) (s s' : σ) (c : WriterCall) (log : List Event)
    (h : c.run (observed w) (s, []) = .ok ((s', log), none)) : c.Valid ∧ ¬ c.Panics ∧ MsgLog c.layout log none := by
  have hp : ¬ c.Panics := fun hp => (call_panics w s s' c log none h hp).2 rfl
  have hv : c.Valid := by
    by_contra hv
    exact ((call_log w s s' c log none h).1 hv).2 rfl
  exact ⟨hv, hp, (call_log w s s' c log none h).2 hv hp⟩

end Webwire
