import Verif.Props.Wire2
import Verif.Proofs.Calls

/-!
# Properties C10 - C13: validation, closing, lengths, injectivity
-/

set_option autoImplicit false

namespace Webwire
open Spec

variable {σ : Type}

/-! ## C10 -/

/-- C10: an invalid call writes no byte, closes the writer exactly once and returns an error, with any
writer. -/
theorem C10_invalid_writes_nothing (w : Writer σ) (s s' : σ) (c : WriterCall) (log : List Event)
    (e : Option Err) (hv : ¬ c.Valid) (h : c.run (observed w) (s, []) = .ok ((s', log), e)) :
    (log = [.closed true] ∨ log = [.closed false]) ∧ e ≠ none := by
  obtain ⟨⟨ok, h1⟩, h2⟩ := (call_log w s s' c log e h).1 hv
  refine ⟨?_, h2⟩
  cases ok <;> simp [h1]

/-- C10: a valid call is never refused: on a writer without failures it returns `nil` and the receiver gets
exactly the documented bytes as one message. -/
theorem C10_valid_is_written (c : WriterCall) (hv : c.Valid) (hp : ¬ c.Panics) (out : List Bytes) :
    c.run pipe ([], out) = .ok (([], out ++ [c.layout]), none) := by
  obtain ⟨parts, h1, h2⟩ := call_valid pipe ([], out) c hv hp
  rw [h1, runParts_pipe, h2, List.nil_append]

/-- C10, non-vacuity: valid and invalid calls exist for each validated function. -/
example : ¬ (WriterCall.request [1,2,3,4,5,6,7,8] [] 2 [1] true).Valid ∧
    (WriterCall.request [1,2,3,4,5,6,7,8] [32] 2 [1, 0] true).Valid ∧
    ¬ (WriterCall.signal [31] 0 [1] true).Valid ∧ (WriterCall.signal [31] 0 [1] false).Valid ∧
    ¬ (WriterCall.errorReply [] [] [] true).Valid := by
  simp [WriterCall.Valid, Printable]

/-! ## C11 -/

/-- C11: every writer call that returns has closed the writer exactly once, as the last thing it did, and
wrote nothing after a failed write, whatever failures the writer produces. -/
theorem C11_closes_exactly_once (w : Writer σ) (s s' : σ) (c : WriterCall) (log : List Event)
    (e : Option Err) (h : c.run (observed w) (s, []) = .ok ((s', log), e)) : ClosedOnce log ∧ closes log = 1 := by
  have key : ClosedOnce log := by
    by_cases hv : c.Valid
    · by_cases hp : c.Panics
      · exact (call_panics w s s' c log e h hp).1
      · rcases (call_log w s s' c log e h).2 hv hp with ⟨ch, -, hh⟩ | ⟨ch, b, ok, -, hh, -⟩
        · rcases hh with ⟨rfl, -⟩ | ⟨rfl, -⟩
          · exact ⟨ch, true, .inl rfl⟩
          · exact ⟨ch, false, .inl rfl⟩
        · exact ⟨ch, ok, .inr ⟨b, hh⟩⟩
    · obtain ⟨⟨ok, h1⟩, -⟩ := (call_log w s s' c log e h).1 hv
      exact ⟨[], ok, .inl h1⟩
  refine ⟨key, ?_⟩
  have hz : ∀ ch : List Bytes, closes (ch.map .wrote) = 0 := by
    intro ch
    induction ch with
    | nil => rfl
    | cons a l ih => simpa [closes] using ih
  obtain ⟨ch, ok, rfl | ⟨b, rfl⟩⟩ := key
  · have := hz ch
    simp only [closes, List.countP_append] at this ⊢
    rw [this]; rfl
  · have := hz ch
    simp only [closes, List.countP_append] at this ⊢
    rw [this]; rfl

/-- C11: a call returns on every writer that neither panics nor blocks, except for the two documented
panics. -/
theorem C11_returns (w : Writer σ) (hw : Total w) (s : σ) (c : WriterCall) (hp : ¬ c.Panics) :
    ∃ r, c.run w s = .ok r := by
  by_cases hv : c.Valid
  · obtain ⟨parts, h1, -⟩ := call_valid w s c hv hp
    rw [h1]; exact runParts_total w hw parts s
  · obtain ⟨err, he⟩ := call_invalid w s c hv
    rw [he]; exact closeWith_total w hw s err

/-- C11: `nil` is returned only if every byte was written and `Close` succeeded. -/
theorem C11_failure_reported (w : Writer σ) (s s' : σ) (c : WriterCall) (log : List Event)
    (h : c.run (observed w) (s, []) = .ok ((s', log), none)) :
    written log = c.layout ∧ log.getLast? = some (.closed true) := by
  obtain ⟨-, -, hm⟩ := call_success w s s' c log h
  refine ⟨hm.written, ?_⟩
  rcases hm with ⟨ch, -, ⟨rfl, -⟩ | ⟨-, he⟩⟩ | ⟨_, _, _, -, -, he⟩
  · simp
  · exact absurd rfl he
  · exact absurd rfl he

/-- A writer whose `n`-th write fails and whose `Close` fails (for the non-vacuity example below). -/
def failing : Writer Nat where
  write := fun n _ => if n = 0 then .ok (0, some "write failed") else .ok (n - 1, none)
  close := fun n => .ok (n, some "close failed")

/-- C11, non-vacuity: the third write of a request fails. -/
example : ∃ e, (WriterCall.request [1,2,3,4,5,6,7,8] [97] 0 [98] true).run (observed failing) (2, []) =
    .ok ((0, [.wrote [127], .wrote [1,2,3,4,5,6,7,8], .writeFailed [1], .closed false]), some e) := ⟨_, rfl⟩

/-! ## C12 -/

/-- C12: `CalcMsgLenSignal` and `CalcMsgLenRequest` are exactly the number of bytes written. -/
theorem C12_lengths_exact (w : Writer σ) (s s' : σ) (log : List Event) (name : Bytes) (enc : Encoding)
    (payload : Bytes) (safe : Bool) :
    (writeMsgSignal (observed w) (s, []) name enc payload safe = .ok ((s', log), none) →
      calcMsgLenSignal name enc payload = (written log).length) ∧
    (∀ id : Bytes, id.length = 8 →
      writeMsgRequest (observed w) (s, []) id name enc payload safe = .ok ((s', log), none) →
      calcMsgLenRequest name enc payload = (written log).length) := by
  constructor
  · intro h
    obtain ⟨-, hw⟩ := signal_accepted _ _ _ _ _ _ _ _ h
    rw [hw]
    unfold calcMsgLenSignal padFor
    split_ifs <;> simp <;> omega
  · intro id hid h
    obtain ⟨-, hw⟩ := request_accepted _ _ _ _ _ _ _ _ _ h
    rw [hw]
    unfold calcMsgLenRequest padFor
    split_ifs <;> simp [hid] <;> omega

/-- C12, full statement for `Connection.Signal`: a signal that is not both empty is refused with
`ErrBufferOverflow` exactly if the bytes to be written exceed the message buffer. -/
def C12_signal_overflow_full : Prop :=
  ∀ (σ : Type) (w : Writer σ) (g : Except Err σ) (size : UInt32) (name : Bytes) (enc : Encoding) (payload : Bytes),
    (name ≠ [] ∨ payload ≠ []) →
    (connSignal w g size name enc payload = .ok .errBufferOverflow ↔
      (WriterCall.signal name enc payload true).layout.length > size.toNat)

theorem calcMsgLenSignal_layout (name : Bytes) (enc : Encoding) (payload : Bytes) (safe : Bool) :
    calcMsgLenSignal name enc payload = (WriterCall.signal name enc payload safe).layout.length := by
  simp only [calcMsgLenSignal, WriterCall.layout]
  rw [← pad_eq]
  unfold padFor
  split_ifs <;> simp <;> omega

theorem connSignal_overflow_iff (w : Writer σ) (g : Except Err σ) (size : UInt32) (name : Bytes)
    (enc : Encoding) (payload : Bytes) (hne : name ≠ [] ∨ payload ≠ []) :
    connSignal w g size name enc payload = .ok .errBufferOverflow ↔
      (WriterCall.signal name enc payload true).layout.length % 4294967296 > size.toNat := by
  unfold connSignal
  have h1 : ¬ (name.length < 1 ∧ payload.length < 1) := by
    rintro ⟨h1, h2⟩
    rcases hne with h | h <;> have := List.length_pos_iff.mpr h <;> omega
  rw [if_neg h1, calcMsgLenSignal_layout name enc payload true]
  have h2 : UInt32.ofNat (WriterCall.signal name enc payload true).layout.length > size ↔
      (WriterCall.signal name enc payload true).layout.length % 4294967296 > size.toNat := by
    rw [gt_iff_lt, UInt32.lt_iff_toNat_lt, UInt32.toNat_ofNat']
  rw [← h2]
  split_ifs with h3
  · simp [h3]
  · simp only [h3, iff_false]
    cases g with
    | error e => simp
    | ok s =>
      simp only [bind, Except.bind]
      cases writeMsgSignal w s name enc payload true with
      | error e => simp
      | ok r => simp [pure, Except.pure]

/-- C12 for `Connection.Signal` and signals shorter than 4 GiB. Missing compared to
`C12_signal_overflow_full`: signals of 2^32 bytes or more, for which it is false. -/
theorem C12_signal_overflow_partial (w : Writer σ) (g : Except Err σ) (size : UInt32) (name : Bytes)
    (enc : Encoding) (payload : Bytes) (hne : name ≠ [] ∨ payload ≠ [])
    (hlen : (WriterCall.signal name enc payload true).layout.length < 4294967296) :
    connSignal w g size name enc payload = .ok .errBufferOverflow ↔
      (WriterCall.signal name enc payload true).layout.length > size.toNat := by
  rw [connSignal_overflow_iff w g size name enc payload hne, Nat.mod_eq_of_lt hlen]

/-- C12 is violated by the code for signals of 4 GiB or more: connection.go:167 converts the length to
`uint32` before comparing. -/
theorem C12_signal_overflow_violated : ¬ C12_signal_overflow_full := by
  intro h
  have ex : ∀ n : Nat, ∃ p : Bytes, p.length = n := fun n => ⟨List.replicate n 0, List.length_replicate⟩
  obtain ⟨p, hp⟩ := ex 4294967296
  have hne : ([] : Bytes) ≠ [] ∨ p ≠ [] := .inr (by rintro rfl; simp at hp)
  have hl : (WriterCall.signal [] 0 p true).layout.length = 4294967298 := by
    simp [WriterCall.layout, pad, hp]
  have h1 := h _ pipe (.ok ([], [])) 1000 [] 0 p hne
  rw [connSignal_overflow_iff _ _ _ _ _ _ hne, hl] at h1
  have : (1000 : UInt32).toNat = 1000 := rfl
  rw [this] at h1
  omega

/-- C12, non-vacuity: a signal of 9 bytes against buffers of 8 and 9 bytes. -/
example : connSignal pipe (.ok ([], [])) 8 [97] 2 [1,0,2,0,3,0] = .ok .errBufferOverflow ∧
    (WriterCall.signal [97] 2 [1,0,2,0,3,0] true).layout.length = 10 ∧
    connSignal pipe (.ok ([], [])) 10 [97] 2 [1,0,2,0,3,0] =
      .ok (.wrote ([], [[65,1,97,0,1,0,2,0,3,0]]) none) := ⟨rfl, rfl, rfl⟩

/-! ## C13 -/

/-- Two calls ask for the same message: equal arguments up to safe mode and up to unknown encodings, which
mean binary. -/
def SameMessage : WriterCall → WriterCall → Prop
  | .request id name enc payload _, .request id' name' enc' payload' _ =>
      id = id' ∧ name = name' ∧ canonEnc enc = canonEnc enc' ∧ payload = payload'
  | .signal name enc payload _, .signal name' enc' payload' _ =>
      name = name' ∧ canonEnc enc = canonEnc enc' ∧ payload = payload'
  | .reply id enc payload, .reply id' enc' payload' =>
      id = id' ∧ canonEnc enc = canonEnc enc' ∧ payload = payload'
  | .errorReply id code text _, .errorReply id' code' text' _ => id = id' ∧ code = code' ∧ text = text'
  | .special t id, .special t' id' => t = t' ∧ id = id'
  | .nameless t id payload, .nameless t' id' payload' => t = t' ∧ id = id' ∧ payload = payload'
  | .heartbeat, .heartbeat => True
  | .sessionClosed, .sessionClosed => True
  | .sessionCreated i, .sessionCreated i' => i = i'
  | _, _ => False

/-- identifiers have 8 bytes -/
def IdentOk : WriterCall → Prop
  | .request id _ _ _ _ | .reply id _ _ | .errorReply id _ _ _ | .special _ id | .nameless _ id _ => id.length = 8
  | _ => True

theorem ofNat_inj (a b : Nat) (ha : a ≤ 255) (hb : b ≤ 255) (h : UInt8.ofNat a = UInt8.ofNat b) : a = b := by
  have := congrArg UInt8.toNat h
  rwa [ofNat_toNat_le a ha, ofNat_toNat_le b hb] at this

theorem layout_injective (c c' : WriterCall) (hv : c.Valid) (hv' : c'.Valid)
    (hp : ¬ c.Panics) (hp' : ¬ c'.Panics) (hi : IdentOk c) (hi' : IdentOk c')
    (h : c.layout = c'.layout) : SameMessage c c' := by
  have pe : ∀ (e e' : Encoding) (n : Bytes), canonEnc e = canonEnc e' → pad e n = pad e' n := by
    intro e e' n hc
    have : (e = 2) ↔ (e' = 2) := by
      unfold canonEnc at hc; split_ifs at hc <;> simp_all
    unfold pad; simp only [this]
  have sp : ∀ t : UInt8, t ∈ [1, 2, 3, 4, 5] → t = 1 ∨ t = 2 ∨ t = 3 ∨ t = 4 ∨ t = 5 := by simp
  have nl : ∀ t : UInt8, ¬ t ∉ [31, 32] → t = 31 ∨ t = 32 := by
    intro t ht; simpa using Classical.not_not.mp ht
  cases c with
  | request id name enc payload safe =>
    cases c' with
    | request id' name' enc' payload' safe' =>
      simp only [WriterCall.layout, List.cons.injEq, List.append_assoc] at h
      obtain ⟨h1, h2⟩ := h
      have hc : canonEnc enc = canonEnc enc' := by
        unfold canonEnc
        split_ifs at h1 ⊢ <;> first | rfl | (exact absurd h1 (by decide))
      obtain ⟨rfl, h3⟩ := List.append_inj h2 (by rw [show id.length = 8 from hi, show id'.length = 8 from hi'])
      simp only [List.singleton_append, List.cons.injEq] at h3
      have hl := ofNat_inj _ _ hv.2.1 hv'.2.1 h3.1
      obtain ⟨rfl, h4⟩ := List.append_inj h3.2 hl
      rw [pe enc enc' name hc] at h4
      exact ⟨rfl, rfl, hc, List.append_cancel_left h4⟩
    | special t' id' =>
      simp only [WriterCall.layout, List.cons.injEq] at h
      rcases sp _ hv' with rfl | rfl | rfl | rfl | rfl <;>
        (have := h.1; split_ifs at this <;> exact absurd this (by decide))
    | nameless t' id' payload' =>
      simp only [WriterCall.layout, List.cons.injEq] at h
      rcases nl _ hp' with rfl | rfl <;>
        (have := h.1; split_ifs at this <;> exact absurd this (by decide))
    | _ =>
      simp only [WriterCall.layout, List.cons.injEq] at h
      have := h.1
      split_ifs at this <;> exact absurd this (by decide)
  | signal name enc payload safe =>
    cases c' with
    | signal name' enc' payload' safe' =>
      simp only [WriterCall.layout, List.cons.injEq, List.append_assoc, List.cons_append, List.nil_append] at h
      obtain ⟨h1, h3⟩ := h
      have hc : canonEnc enc = canonEnc enc' := by
        unfold canonEnc
        split_ifs at h1 ⊢ <;> first | rfl | (exact absurd h1 (by decide))
      have hl := ofNat_inj _ _ hv.1 hv'.1 h3.1
      obtain ⟨rfl, h4⟩ := List.append_inj h3.2 hl
      rw [pe enc enc' name hc] at h4
      exact ⟨rfl, hc, List.append_cancel_left h4⟩
    | special t' id' =>
      simp only [WriterCall.layout, List.cons.injEq] at h
      rcases sp _ hv' with rfl | rfl | rfl | rfl | rfl <;>
        (have := h.1; split_ifs at this <;> exact absurd this (by decide))
    | nameless t' id' payload' =>
      simp only [WriterCall.layout, List.cons.injEq] at h
      rcases nl _ hp' with rfl | rfl <;>
        (have := h.1; split_ifs at this <;> exact absurd this (by decide))
    | _ =>
      simp only [WriterCall.layout, List.cons.injEq] at h
      have := h.1
      split_ifs at this <;> exact absurd this (by decide)
  | reply id enc payload =>
    cases c' with
    | reply id' enc' payload' =>
      simp only [WriterCall.layout, List.cons.injEq, List.append_assoc] at h
      obtain ⟨h1, h2⟩ := h
      have hc : canonEnc enc = canonEnc enc' := by
        unfold canonEnc
        split_ifs at h1 ⊢ <;> first | rfl | (exact absurd h1 (by decide))
      obtain ⟨rfl, h3⟩ := List.append_inj h2 (by rw [show id.length = 8 from hi, show id'.length = 8 from hi'])
      have h2' : (enc = 2) ↔ (enc' = 2) := by
        unfold canonEnc at hc; split_ifs at hc <;> simp_all
      simp only [h2'] at h3
      exact ⟨rfl, hc, List.append_cancel_left h3⟩
    | special t' id' =>
      simp only [WriterCall.layout, List.cons.injEq] at h
      rcases sp _ hv' with rfl | rfl | rfl | rfl | rfl <;>
        (have := h.1; split_ifs at this <;> exact absurd this (by decide))
    | nameless t' id' payload' =>
      simp only [WriterCall.layout, List.cons.injEq] at h
      rcases nl _ hp' with rfl | rfl <;>
        (have := h.1; split_ifs at this <;> exact absurd this (by decide))
    | _ =>
      simp only [WriterCall.layout, List.cons.injEq] at h
      have := h.1
      split_ifs at this <;> exact absurd this (by decide)
  | errorReply id code text safe =>
    have hl0 : code.length ≤ 255 := by
      cases safe with
      | true => exact (hv rfl).2.1
      | false => simpa [WriterCall.Panics] using hp
    cases c' with
    | errorReply id' code' text' safe' =>
      have hl1 : code'.length ≤ 255 := by
        cases safe' with
        | true => exact (hv' rfl).2.1
        | false => simpa [WriterCall.Panics] using hp'
      simp only [WriterCall.layout, List.cons.injEq, List.append_assoc, true_and] at h
      obtain ⟨rfl, h3⟩ := List.append_inj h (by rw [show id.length = 8 from hi, show id'.length = 8 from hi'])
      simp only [List.singleton_append, List.cons.injEq] at h3
      have hl := ofNat_inj _ _ hl0 hl1 h3.1
      obtain ⟨rfl, h4⟩ := List.append_inj h3.2 hl
      exact ⟨rfl, rfl, h4⟩
    | special t' id' =>
      simp only [WriterCall.layout, List.cons.injEq] at h
      rcases sp _ hv' with rfl | rfl | rfl | rfl | rfl <;> exact absurd h.1 (by decide)
    | nameless t' id' payload' =>
      simp only [WriterCall.layout, List.cons.injEq] at h
      rcases nl _ hp' with rfl | rfl <;> exact absurd h.1 (by decide)
    | _ =>
      simp only [WriterCall.layout, List.cons.injEq] at h
      have := h.1
      first
        | exact absurd this (by decide)
        | (split_ifs at this <;> exact absurd this (by decide))
  | special t id =>
    have ht := sp _ hv
    cases c' with
    | special t' id' => simpa [WriterCall.layout, SameMessage] using h
    | nameless t' id' payload' =>
      simp only [WriterCall.layout, List.cons.injEq] at h
      have ht' := nl _ hp'
      rw [h.1] at ht
      rcases ht' with rfl | rfl <;> simp at ht
    | _ =>
      simp only [WriterCall.layout, List.cons.injEq] at h
      have := h.1
      rw [this] at ht
      first
        | exact absurd ht (by decide)
        | (split_ifs at ht <;> exact absurd ht (by decide))
  | nameless t id payload =>
    have ht := nl _ hp
    cases c' with
    | nameless t' id' payload' =>
      simp only [WriterCall.layout, List.cons.injEq] at h
      obtain ⟨rfl, h3⟩ := List.append_inj h.2 (by rw [show id.length = 8 from hi, show id'.length = 8 from hi'])
      exact ⟨h.1, rfl, h3⟩
    | special t' id' =>
      simp only [WriterCall.layout, List.cons.injEq] at h
      have ht' := sp _ hv'
      rw [← h.1] at ht'
      rcases ht with rfl | rfl <;> simp at ht'
    | _ =>
      simp only [WriterCall.layout, List.cons.injEq] at h
      have := h.1
      rw [this] at ht
      first
        | exact absurd ht (by decide)
        | (split_ifs at ht <;> exact absurd ht (by decide))
  | _ =>
    cases c' with
    | special t' id' =>
      simp only [WriterCall.layout, List.cons.injEq] at h
      have ht' := sp _ hv'
      rw [← h.1] at ht'
      exact absurd ht' (by decide)
    | nameless t' id' payload' =>
      simp only [WriterCall.layout, List.cons.injEq] at h
      have ht' := nl _ hp'
      rw [← h.1] at ht'
      exact absurd ht' (by decide)
    | _ =>
      first
        | exact trivial
        | exact (List.cons.inj h).2
        | (have := (List.cons.inj h).1
           exact absurd this (by decide))
        | (have := (List.cons.inj h).1
           split_ifs at this <;> exact absurd this (by decide))

/-- C13: two successful calls that hand the same bytes to their writers ask for the same message. -/
theorem C13_distinct_messages_distinct_bytes {σ' : Type} (w : Writer σ) (w' : Writer σ') (s s1 : σ) (t t1 : σ')
    (c c' : WriterCall) (log log' : List Event) (hi : IdentOk c) (hi' : IdentOk c')
    (h : c.run (observed w) (s, []) = .ok ((s1, log), none))
    (h' : c'.run (observed w') (t, []) = .ok ((t1, log'), none))
    (hb : written log = written log') : SameMessage c c' := by
  obtain ⟨hv, hp, hm⟩ := call_success w s s1 c log h
  obtain ⟨hv', hp', hm'⟩ := call_success w' t t1 c' log' h'
  exact layout_injective c c' hv hv' hp hp' hi hi' (by rw [← hm.written, hb, hm'.written])

/-- C13, non-vacuity: a UTF16 and a binary request with related contents. -/
example : (WriterCall.request [1,2,3,4,5,6,7,8] [97] 2 [1,0] true).layout ≠
    (WriterCall.request [1,2,3,4,5,6,7,8] [97] 0 [0,1,0] true).layout := by decide

end Webwire
