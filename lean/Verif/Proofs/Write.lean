import Verif.Spec.WriterLog
import Mathlib.Tactic.Common

/-! Helper lemmas: every writer function either refuses its input (closing the writer) or writes a fixed
list of parts and closes. -/

set_option autoImplicit false

namespace Webwire
open Spec

variable {σ : Type}

/-- write the parts in order, then close -/
def runParts (w : Writer σ) (s : σ) : List Bytes → Go (σ × Option Err)
  | [] => w.close s
  | p :: ps => writePart w s p fun s => runParts w s ps

theorem closeWith_log (w : Writer σ) (s s' : σ) (log log' : List Event) (err : Err) (e : Option Err)
    (h : closeWith (observed w) (s, log) err = .ok ((s', log'), e)) :
    (∃ ok, log' = log ++ [.closed ok]) ∧ e ≠ none := by
  simp only [closeWith, observed, bind, Except.bind] at h
  cases hc : w.close s with
  | error _ => simp [hc] at h
  | ok r =>
    obtain ⟨s1, ce⟩ := r
    simp only [hc] at h
    cases ce with
    | none => 
      simp only [pure, Except.pure, Except.ok.injEq, Prod.mk.injEq] at h
      obtain ⟨⟨-, rfl⟩, rfl⟩ := h
      exact ⟨⟨_, rfl⟩, by simp⟩
    | some c => 
      simp only [pure, Except.pure, Except.ok.injEq, Prod.mk.injEq] at h
      obtain ⟨⟨-, rfl⟩, rfl⟩ := h
      exact ⟨⟨_, rfl⟩, by simp⟩

theorem runParts_log (w : Writer σ) (parts : List Bytes) : ∀ (s s' : σ) (log log' : List Event) (e : Option Err),
    runParts (observed w) (s, log) parts = .ok ((s', log'), e) →
    ∃ l, log' = log ++ l ∧ MsgLog parts.flatten l e := by
  induction parts with
  | nil =>
    intro s s' log log' e h
    simp only [runParts, observed, bind, Except.bind] at h
    cases hc : w.close s with
    | error _ => simp [hc] at h
    | ok r =>
      obtain ⟨s1, ce⟩ := r
      simp only [hc] at h
      cases ce with
      | none =>
        simp only [pure, Except.pure, Except.ok.injEq, Prod.mk.injEq] at h
        obtain ⟨⟨-, rfl⟩, rfl⟩ := h
        exact ⟨_, rfl, .inl ⟨[], rfl, .inl ⟨rfl, rfl⟩⟩⟩
      | some c =>
        simp only [pure, Except.pure, Except.ok.injEq, Prod.mk.injEq] at h
        obtain ⟨⟨-, rfl⟩, rfl⟩ := h
        exact ⟨_, rfl, .inl ⟨[], rfl, .inr ⟨rfl, by simp⟩⟩⟩
  | cons p ps ih =>
    intro s s' log log' e h
    simp only [runParts, writePart, bind, Except.bind] at h
    cases hw : w.write s p with
    | error _ => simp [observed, hw, bind, Except.bind] at h
    | ok r =>
      obtain ⟨s1, we⟩ := r
      cases we with
      | none =>
        have hobs : (observed w).write (s, log) p = .ok ((s1, log ++ [.wrote p]), none) := by
          simp [observed, hw, bind, Except.bind, pure, Except.pure]
        simp only [hobs] at h
        obtain ⟨l, rfl, hl⟩ := ih _ _ _ _ _ h
        refine ⟨.wrote p :: l, by simp, ?_⟩
        rcases hl with ⟨ch, hf, hh⟩ | ⟨ch, b, ok, hp, hlog, he⟩
        · refine .inl ⟨p :: ch, by simp [hf], ?_⟩
          rcases hh with ⟨rfl, he⟩ | ⟨rfl, he⟩
          · exact .inl ⟨rfl, he⟩
          · exact .inr ⟨rfl, he⟩
        · refine .inr ⟨p :: ch, b, ok, ?_, by simp [hlog], he⟩
          simpa [List.append_assoc] using hp
      | some we =>
        have hobs : (observed w).write (s, log) p = .ok ((s1, log ++ [.writeFailed p]), some we) := by
          simp [observed, hw, bind, Except.bind, pure, Except.pure]
        simp only [hobs] at h
        obtain ⟨⟨ok, rfl⟩, he⟩ := closeWith_log _ _ _ _ _ _ _ h
        exact ⟨[.writeFailed p, .closed ok], by simp, .inr ⟨[], p, ok, by simp, rfl, he⟩⟩

theorem closeWith_total (w : Writer σ) (t : Total w) (s : σ) (err : Err) :
    ∃ r, closeWith w s err = .ok r := by
  obtain ⟨⟨s', e⟩, h⟩ := t.2 s
  simp only [closeWith, h, bind, Except.bind]
  cases e <;> exact ⟨_, rfl⟩

theorem runParts_total (w : Writer σ) (t : Total w) (parts : List Bytes) :
    ∀ s, ∃ r, runParts w s parts = .ok r := by
  induction parts with
  | nil => exact fun s => t.2 s
  | cons p ps ih =>
    intro s
    obtain ⟨⟨s', e⟩, h⟩ := t.1 s p
    simp only [runParts, writePart, h, bind, Except.bind]
    cases e with
    | none => exact ih s'
    | some e => exact closeWith_total w t _ _

theorem observed_total (w : Writer σ) (t : Total w) : Total (observed w) := by
  constructor
  · rintro ⟨s, log⟩ b
    obtain ⟨⟨s', e⟩, h⟩ := t.1 s b
    cases e <;> exact ⟨_, by simp [observed, h, bind, Except.bind]; rfl⟩
  · rintro ⟨s, log⟩
    obtain ⟨⟨s', e⟩, h⟩ := t.2 s
    cases e <;> exact ⟨_, by simp [observed, h, bind, Except.bind]; rfl⟩

theorem runParts_pipe (parts : List Bytes) : ∀ (pending : Bytes) (out : List Bytes),
    runParts pipe (pending, out) parts = .ok (([], out ++ [pending ++ parts.flatten]), none) := by
  induction parts with
  | nil => intro p o; simp [runParts, pipe]
  | cons p ps ih =>
    intro pending out
    simp only [runParts, writePart, bind, Except.bind]
    rw [show pipe.write (pending, out) p = .ok ((pending ++ p, out), none) from rfl]
    simp only [ih]
    simp [List.append_assoc]

/-! the table of length bytes -/

set_option maxRecDepth 10000 in
theorem msgNameLenBytes_eq : msgNameLenBytes = (List.range 256).map UInt8.ofNat := by decide

theorem nameLenPart_ok (n : Nat) (h : n < 256) : nameLenPart n = .ok [UInt8.ofNat n] := by
  simp [nameLenPart, msgNameLenBytes_eq, h]

theorem nameLenPart_panic (n : Nat) (h : 256 ≤ n) : nameLenPart n = goPanic "slice bounds out of range" := by
  have : (List.map UInt8.ofNat (List.range 256))[n]? = none := by
    rw [List.getElem?_eq_none_iff]; simpa using h
  simp only [nameLenPart, msgNameLenBytes_eq, this]

/-! each writer in terms of `closeWith` and `runParts` -/

/-- padding of UTF16 payloads -/
def padFor (enc : Encoding) (name : Bytes) : Bytes :=
  if enc = encUtf16 ∧ name.length % 2 ≠ 0 then [0] else []

def requestType (enc : Encoding) : UInt8 := if enc = 1 then 128 else if enc = 2 then 129 else 127
def signalType (enc : Encoding) : UInt8 := if enc = 1 then 64 else if enc = 2 then 65 else 63
def replyType (enc : Encoding) : UInt8 := if enc = 1 then 192 else if enc = 2 then 193 else 191

def badRequest (name : Bytes) (enc : Encoding) (payload : Bytes) (safeMode : Bool) : Prop :=
  (name.length < 1 ∧ payload.length < 1) ∨ name.length > 255 ∨ (enc = encUtf16 ∧ payload.length % 2 ≠ 0) ∨
    (safeMode = true ∧ hasBadChar name = true)

theorem writeMsgRequest_bad (w : Writer σ) (s : σ) (id name : Bytes) (enc : Encoding) (payload : Bytes)
    (safe : Bool) (h : badRequest name enc payload safe) :
    ∃ err, writeMsgRequest w s id name enc payload safe = closeWith w s err := by
  unfold writeMsgRequest
  unfold badRequest at h
  split_ifs
  all_goals first | exact ⟨_, rfl⟩ | (exfalso; tauto)

theorem writeMsgRequest_good (w : Writer σ) (s : σ) (id name : Bytes) (enc : Encoding) (payload : Bytes)
    (safe : Bool) (h : ¬ badRequest name enc payload safe) :
    ∃ parts, writeMsgRequest w s id name enc payload safe = runParts w s parts ∧
      parts.flatten = requestType enc :: (id ++ UInt8.ofNat name.length :: (name ++ padFor enc name ++ payload)) := by
  unfold badRequest at h
  push Not at h
  obtain ⟨h1, h2, h3, h4⟩ := h
  unfold writeMsgRequest
  rw [if_neg (by omega), if_neg (by omega), if_neg (by tauto), if_neg (by tauto)]
  by_cases hp : enc = encUtf16 ∧ name.length % 2 ≠ 0
  · refine ⟨[[requestType enc], id, [UInt8.ofNat name.length], name, [0], payload], ?_, ?_⟩
    · simp only [runParts, nameLenPart_ok _ (show name.length < 256 by omega), bind, Except.bind, if_pos hp]
      rfl
    · rw [padFor, if_pos hp]; simp
  · refine ⟨[[requestType enc], id, [UInt8.ofNat name.length], name, payload], ?_, ?_⟩
    · simp only [runParts, nameLenPart_ok _ (show name.length < 256 by omega), bind, Except.bind, if_neg hp]
      rfl
    · rw [padFor, if_neg hp]; simp

def badSignal (name : Bytes) (enc : Encoding) (payload : Bytes) (safeMode : Bool) : Prop :=
  name.length > 255 ∨ (enc = encUtf16 ∧ payload.length % 2 ≠ 0) ∨
    (safeMode = true ∧ hasBadChar name = true)

theorem writeMsgSignal_bad (w : Writer σ) (s : σ) (name : Bytes) (enc : Encoding) (payload : Bytes)
    (safe : Bool) (h : badSignal name enc payload safe) :
    ∃ err, writeMsgSignal w s name enc payload safe = closeWith w s err := by
  unfold writeMsgSignal
  unfold badSignal at h
  split_ifs
  all_goals first | exact ⟨_, rfl⟩ | (exfalso; tauto)

theorem writeMsgSignal_good (w : Writer σ) (s : σ) (name : Bytes) (enc : Encoding) (payload : Bytes)
    (safe : Bool) (h : ¬ badSignal name enc payload safe) :
    ∃ parts, writeMsgSignal w s name enc payload safe = runParts w s parts ∧
      parts.flatten = signalType enc :: UInt8.ofNat name.length :: (name ++ padFor enc name ++ payload) := by
  unfold badSignal at h
  push Not at h
  obtain ⟨h2, h3, h4⟩ := h
  unfold writeMsgSignal
  rw [if_neg (by omega), if_neg (by tauto), if_neg (by tauto)]
  by_cases hn : name.length > 0
  · by_cases hp : enc = encUtf16 ∧ name.length % 2 ≠ 0
    · refine ⟨[[signalType enc], [UInt8.ofNat name.length], name, [0], payload], ?_, ?_⟩
      · simp only [runParts, nameLenPart_ok _ (show name.length < 256 by omega), bind, Except.bind, if_pos hp,
          if_pos hn]
        rfl
      · rw [padFor, if_pos hp]; simp
    · refine ⟨[[signalType enc], [UInt8.ofNat name.length], name, payload], ?_, ?_⟩
      · simp only [runParts, nameLenPart_ok _ (show name.length < 256 by omega), bind, Except.bind, if_neg hp,
          if_pos hn]
        rfl
      · rw [padFor, if_neg hp]; simp
  · have hp : ¬ (enc = encUtf16 ∧ name.length % 2 ≠ 0) := by omega
    refine ⟨[[signalType enc], [UInt8.ofNat name.length], payload], ?_, ?_⟩
    · simp only [runParts, nameLenPart_ok _ (show name.length < 256 by omega), bind, Except.bind, if_neg hp,
        if_neg hn]
      rfl
    · have : name = [] := List.eq_nil_of_length_eq_zero (by omega)
      subst this
      simp [padFor]

theorem writeMsgReply_bad (w : Writer σ) (s : σ) (id : Bytes) (enc : Encoding) (payload : Bytes)
    (h : enc = encUtf16 ∧ payload.length % 2 ≠ 0) :
    ∃ err, writeMsgReply w s id enc payload = closeWith w s err := by
  unfold writeMsgReply
  rw [if_pos h]; exact ⟨_, rfl⟩

theorem writeMsgReply_good (w : Writer σ) (s : σ) (id : Bytes) (enc : Encoding) (payload : Bytes)
    (h : ¬ (enc = encUtf16 ∧ payload.length % 2 ≠ 0)) :
    ∃ parts, writeMsgReply w s id enc payload = runParts w s parts ∧
      parts.flatten = replyType enc :: (id ++ (if enc = 2 then [0] else []) ++ payload) := by
  unfold writeMsgReply
  rw [if_neg h]
  by_cases hp : enc = encUtf16
  · refine ⟨[[replyType enc], id, [0], payload], ?_, ?_⟩
    · subst hp; rfl
    · simp [if_pos (show enc = 2 from hp)]
  · refine ⟨[[replyType enc], id, payload], ?_, ?_⟩
    · have e : replyType enc = if enc = encUtf8 then MsgReplyUtf8
          else if enc = encUtf16 then MsgReplyUtf16 else MsgReplyBinary := rfl
      rw [e]
      simp only [runParts, if_neg hp]
    · simp [if_neg (show ¬ enc = 2 from hp)]

def badErrorReply (code : Bytes) : Prop :=
  code.length < 1 ∨ code.length > 255 ∨ hasBadChar code = true

theorem writeMsgReplyError_bad (w : Writer σ) (s : σ) (id code text : Bytes) (h : badErrorReply code) :
    ∃ err, writeMsgReplyError w s id code text true = closeWith w s err := by
  unfold writeMsgReplyError
  unfold badErrorReply at h
  split_ifs
  all_goals first | exact ⟨_, rfl⟩ | (exfalso; simp_all; omega)

theorem writeMsgReplyError_good (w : Writer σ) (s : σ) (id code text : Bytes) (safe : Bool)
    (h : safe = true → ¬ badErrorReply code) (hlen : code.length ≤ 255) :
    ∃ parts, writeMsgReplyError w s id code text safe = runParts w s parts ∧
      parts.flatten = 0 :: (id ++ UInt8.ofNat code.length :: (code ++ text)) := by
  unfold badErrorReply at h
  unfold writeMsgReplyError
  rw [if_neg (by tauto), if_neg (by tauto), if_neg (by tauto)]
  refine ⟨[[0], id, [UInt8.ofNat code.length], code, text], ?_, by simp⟩
  simp only [runParts, nameLenPart_ok _ (show code.length < 256 by omega), bind, Except.bind]
  rfl

theorem writeMsgSpecial_good (w : Writer σ) (s : σ) (t : UInt8) (id : Bytes) (h : t ∈ [1, 2, 3, 4, 5]) :
    writeMsgSpecialRequestReply w s t id = runParts w s [[t], id] := by
  simp only [List.mem_cons, List.not_mem_nil, or_false] at h
  rcases h with rfl | rfl | rfl | rfl | rfl <;> rfl

theorem writeMsgSpecial_bad (w : Writer σ) (s : σ) (t : UInt8) (id : Bytes) (h : t ∉ [1, 2, 3, 4, 5]) :
    ∃ err, writeMsgSpecialRequestReply w s t id = closeWith w s err := by
  simp only [List.mem_cons, List.not_mem_nil, or_false, not_or] at h
  refine ⟨"message type doesn't represent a special reply message", ?_⟩
  simp [writeMsgSpecialRequestReply, MsgReplyInternalError, MsgReplyMaxSessConnsReached,
    MsgReplySessionNotFound, MsgReplySessionsDisabled, MsgReplyShutdown, h]

theorem writeMsgNameless_good (w : Writer σ) (s : σ) (t : UInt8) (id payload : Bytes) (h : t ∈ [31, 32]) :
    ∃ parts, writeMsgNamelessRequest w s t id payload = runParts w s parts ∧
      parts.flatten = t :: (id ++ payload) := by
  simp only [List.mem_cons, List.not_mem_nil, or_false] at h
  by_cases hp : payload.length > 0
  · refine ⟨[[t], id, payload], ?_, by simp⟩
    rcases h with rfl | rfl <;>
      simp [writeMsgNamelessRequest, MsgRequestRestoreSession, MsgRequestCloseSession, hp, runParts]
  · refine ⟨[[t], id], ?_, ?_⟩
    · rcases h with rfl | rfl <;>
        simp [writeMsgNamelessRequest, MsgRequestRestoreSession, MsgRequestCloseSession, hp, runParts]
    · have : payload = [] := List.eq_nil_of_length_eq_zero (by omega)
      simp [this]

end Webwire
