import Verif.Model.BufferRead
import Verif.Proofs.Parse
import Verif.Proofs.NoPanic

/-!
# Property C14: streamed reading
-/

set_option autoImplicit false

namespace Webwire
namespace Spec

/-- The reader delivers exactly the bytes `data` and then reports the end of the stream: chunks without error,
then a last chunk together with `io.EOF` (empty if the reader reports the end separately). -/
def Delivers (chunks : List Bytes) (last : Bytes) : List Answer := chunks.map (·, none) ++ [(last, some .eof)]

/-- The reader respects `io.Reader`: no answer is longer than the slice offered to it, which is the free part
of a buffer of `size` bytes, or the whole buffer once it is full. -/
def Fits (size : Nat) : Nat → List Bytes → Prop
  | _, [] => True
  | cursor, c :: cs =>
    c.length ≤ (if cursor ≥ size then size else size - cursor) ∧ Fits size (cursor + c.length) cs

end Spec
open Spec

theorem storeAt_append (a b c : Bytes) (h : c.length ≤ b.length) :
    storeAt (a ++ b) a.length c = a ++ c ++ b.drop c.length := by
  simp [storeAt, goCopy, List.take_of_length_le h]

/-- helper: chunks that fit are stored one after the other -/
theorem bufferRead_fit (chunks : List Bytes) (last : Bytes) (tail : List Answer) :
    ∀ (m : Msg) (got free : Bytes), m.buf = got ++ free →
      (chunks.flatten ++ last).length ≤ free.length →
      (∀ c ∈ chunks, c ≠ []) →
      m.bufferRead got.length (Delivers chunks last ++ tail) =
        .ok ({ m with buf := got ++ (chunks.flatten ++ last) ++ free.drop (chunks.flatten ++ last).length,
                      len := (got ++ (chunks.flatten ++ last)).length }, none, tail) := by
  induction chunks with
  | nil =>
    intro m got free hb hl _
    simp only [Delivers, List.map_nil, List.nil_append, List.flatten_nil, List.cons_append] at hl ⊢
    unfold Msg.bufferRead
    by_cases hfull : got.length ≥ m.buf.length
    · have : free = [] := by
        rw [hb, List.length_append] at hfull
        exact List.length_eq_zero_iff.mp (by omega)
      subst this
      have hl' : last = [] := by simpa using hl
      subst hl'
      rw [if_pos hfull, if_neg (by simp)]
      simp only [storeAt, goCopy, hb, List.append_nil]
      simp
    · rw [if_neg hfull]
      simp only [hb, storeAt_append got free last hl, List.length_append]
  | cons c cs ih =>
    intro m got free hb hl hne
    simp only [List.flatten_cons, List.length_append] at hl
    have hc : c ≠ [] := hne c (by simp)
    have hcl := List.length_pos_iff.mpr hc
    simp only [Delivers, List.map_cons, List.cons_append]
    unfold Msg.bufferRead
    have hnf : ¬ got.length ≥ m.buf.length := by rw [hb]; simp; omega
    rw [if_neg hnf]
    have := ih { m with buf := storeAt m.buf got.length c } (got ++ c) (free.drop c.length)
      (by rw [hb, storeAt_append got free c (by omega)])
      (by simp only [List.length_append, List.length_drop]; omega) (fun x hx => hne x (by simp [hx]))
    simp only [List.length_append, Delivers, List.append_assoc] at this
    simp only [List.append_assoc] at *
    rw [this]
    simp [List.drop_drop, Nat.add_comm, Nat.add_left_comm, Nat.add_assoc]

theorem drain_delivers (chunks : List Bytes) (last : Bytes) (tail : List Answer) :
    drain (Delivers chunks last ++ tail) = .ok tail := by
  induction chunks with
  | nil => rfl
  | cons c cs ih => simpa [Delivers, drain] using ih

/-- helper: more bytes than the buffer has room for -/
theorem bufferRead_overflow (chunks : List Bytes) (last : Bytes) (tail : List Answer) :
    ∀ (m : Msg) (cursor : Nat), cursor ≤ m.buf.length →
      m.buf.length < cursor + (chunks.flatten ++ last).length →
      Fits m.buf.length cursor (chunks ++ [last]) →
      ¬ (cursor + chunks.flatten.length = m.buf.length ∧ last ≠ []) →
      ∃ m', m.bufferRead cursor (Delivers chunks last ++ tail) = .ok (m', some "message buffer overflow", tail) ∧
        m'.len = 0 ∧ m'.buf.length = m.buf.length := by
  induction chunks with
  | nil =>
    intro m cursor h1 h2 h3 h4
    exfalso
    simp only [List.flatten_nil, List.length_nil, Nat.add_zero, List.nil_append] at h2 h4
    simp only [List.nil_append, Fits] at h3
    obtain ⟨h3, -⟩ := h3
    split_ifs at h3 with h
    · refine h4 ⟨by omega, ?_⟩
      rintro rfl
      simp at h2; omega
    · omega
  | cons c cs ih =>
    intro m cursor h1 h2 h3 h4
    simp only [Delivers, List.map_cons, List.cons_append]
    unfold Msg.bufferRead
    have slen : ∀ (b : Bytes) (k : Nat) (x : Bytes), k ≤ b.length → x.length ≤ b.length - k →
        (storeAt b k x).length = b.length := by
      intro b k x hk hx
      simp [storeAt, goCopy]; omega
    simp only [List.cons_append, Fits] at h3
    by_cases hfull : cursor ≥ m.buf.length
    · rw [if_pos hfull, if_pos (by simp)]
      have := drain_delivers cs last tail
      simp only [Delivers] at this
      simp only [this, bind, Except.bind, pure, Except.pure]
      refine ⟨_, rfl, rfl, ?_⟩
      rw [if_pos hfull] at h3
      simp only [Msg.bufferClose]
      exact slen _ _ _ (by omega) (by omega)
    · rw [if_neg hfull] at h3 ⊢
      have hsl := slen m.buf cursor c h1 h3.1
      obtain ⟨m', e1, e2, e3⟩ := ih { m with buf := storeAt m.buf cursor c } (cursor + c.length)
        (by simp only [hsl]; omega)
        (by simp only [hsl]; simp only [List.flatten_cons, List.length_append] at h2 ⊢; omega)
        (by simp only [hsl]; exact h3.2)
        (by
          simp only [hsl]
          simp only [List.flatten_cons, List.length_append] at h4
          rintro ⟨a, b⟩; exact h4 ⟨by omega, b⟩)
      exact ⟨m', e1, e2, e3.trans hsl⟩

/-! ## C14 -/

/-- C14, full statement: for every way a conforming reader may deliver the bytes of a message, reading gives
what `ReadBytes` gives for these bytes, and a stream longer than the buffer is refused. -/
def C14_full : Prop :=
  ∀ (m : Msg) (chunks : List Bytes) (last : Bytes), Fits m.buf.length 0 (chunks ++ [last]) →
    let data := chunks.flatten ++ last
    (data.length ≤ m.buf.length → data ≠ [] → ∀ m' tp e, m.readBytes data = .ok (m', tp, e) →
      m.read (Delivers chunks last) = .ok (m', tp, e, [])) ∧
    (data.length > m.buf.length → ∃ m' e, m.read (Delivers chunks last) = .ok (m', false, some e, []))

/-- C14 for readers that never return zero bytes without an error, and that do not return further bytes
together with `io.EOF` when the buffer is already full. Missing compared to `C14_full`: these two cases, for
which it is false. -/
theorem C14_streaming_partial (m : Msg) (chunks : List Bytes) (last : Bytes)
    (hfit : Fits m.buf.length 0 (chunks ++ [last])) (hne : ∀ c ∈ chunks, c ≠ [])
    (heof : ¬ (chunks.flatten.length = m.buf.length ∧ last ≠ [])) :
    let data := chunks.flatten ++ last
    (data.length ≤ m.buf.length → data ≠ [] → ∀ m' tp e, m.readBytes data = .ok (m', tp, e) →
      m.read (Delivers chunks last) = .ok (m', tp, e, [])) ∧
    (data.length > m.buf.length → ∃ m' e, m.read (Delivers chunks last) = .ok (m', false, some e, [])) := by
  intro data
  constructor
  · intro hle hd m' tp e hr
    have h := bufferRead_fit chunks last [] m [] m.buf rfl hle hne
    simp only [List.append_nil, List.length_nil, List.nil_append] at h
    unfold Msg.read
    rw [h]
    rw [readBytes_eq hd hle, goCopy_le _ _ hle] at hr
    simp only [bind, Except.bind]
    simp only [data] at hr
    simp only [hr]
    rfl
  · intro hgt
    obtain ⟨m', h1, -, -⟩ := bufferRead_overflow chunks last [] m 0 (by omega) (by rw [Nat.zero_add]; exact hgt) hfit
      (by rw [Nat.zero_add]; exact heof)
    rw [List.append_nil] at h1
    refine ⟨m', "message buffer overflow", ?_⟩
    unfold Msg.read
    rw [h1]
    rfl

/-- C14: the result does not depend on the chunking. -/
theorem C14_chunking_independent_partial (m : Msg) (c1 c2 : List Bytes) (l1 l2 : Bytes)
    (hdata : c1.flatten ++ l1 = c2.flatten ++ l2)
    (hlen : (c1.flatten ++ l1).length ≤ m.buf.length)
    (h1 : ∀ c ∈ c1, c ≠ []) (h2 : ∀ c ∈ c2, c ≠ []) :
    m.read (Delivers c1 l1) = m.read (Delivers c2 l2) := by
  have e1 := bufferRead_fit c1 l1 [] m [] m.buf rfl hlen h1
  have e2 := bufferRead_fit c2 l2 [] m [] m.buf rfl (hdata ▸ hlen) h2
  simp only [List.append_nil, List.length_nil, List.nil_append] at e1 e2
  unfold Msg.read
  rw [e1, e2, hdata]

/-- helper: an error before the buffer is full -/
theorem bufferRead_fails (chunks : List Bytes) (last : Bytes) (e : Err) (tail : List Answer) :
    ∀ (m : Msg) (cursor : Nat), cursor + chunks.flatten.length < m.buf.length → Fits m.buf.length cursor (chunks ++ [last]) →
      ∃ m', m.bufferRead cursor (chunks.map (·, none) ++ (last, some (.other e)) :: tail) = .ok (m', some e, tail) ∧
        m'.isEmpty = true := by
  induction chunks with
  | nil =>
    intro m cursor h _
    simp only [List.flatten_nil, List.length_nil, Nat.add_zero] at h
    simp only [List.map_nil, List.nil_append]
    unfold Msg.bufferRead
    rw [if_neg (by omega)]
    exact ⟨_, rfl, rfl⟩
  | cons c cs ih =>
    intro m cursor h hf
    simp only [List.flatten_cons, List.length_append] at h
    simp only [List.cons_append, Fits] at hf
    simp only [List.map_cons, List.cons_append]
    unfold Msg.bufferRead
    rw [if_neg (by omega)]
    rw [if_neg (by omega)] at hf
    have hsl : (storeAt m.buf cursor c).length = m.buf.length := by simp [storeAt, goCopy]; omega
    exact ih { m with buf := storeAt m.buf cursor c } (cursor + c.length) (by simp only [hsl]; omega) (by simp only [hsl]; exact hf.2)

/-- C14: an error of the reader is passed on, nothing is parsed, and the message is left empty. (If the buffer was full already
the error is that it overflowed.) -/
theorem C14_failure_passed_on (m : Msg) (chunks : List Bytes) (last : Bytes) (e : Err) (tail : List Answer)
    (hfit : Fits m.buf.length 0 (chunks ++ [last])) (hlt : chunks.flatten.length < m.buf.length) :
    ∃ m', m.read (chunks.map (·, none) ++ (last, some (.other e)) :: tail) = .ok (m', false, some e, tail) ∧
      m'.isEmpty = true := by
  obtain ⟨m', h1, h2⟩ := bufferRead_fails chunks last e tail m 0 (by omega) hfit
  refine ⟨m', ?_, h2⟩
  unfold Msg.read
  rw [h1]
  rfl

/-- A reader that fails after two bytes of a signal. -/
example : Fits 8 0 ([[63], [1]] ++ [[97]]) ∧ [[63], [1]].flatten.length < (newMessage 8).buf.length := ⟨by simp [Fits], by decide⟩

/-- C14 is violated when a reader returns bytes together with `io.EOF` once the buffer is full
(buffer.go:36): a binary signal of 5 bytes is accepted into a buffer of 4 bytes, truncated and as a UTF8
signal. -/
theorem C14_streaming_violated : ¬ C14_full := by
  intro h
  obtain ⟨-, h2⟩ := h (newMessage 4) [[63, 1, 97, 98]] [64] (by simp [Fits, newMessage])
  obtain ⟨m', e, h2⟩ := h2 (by simp [newMessage])
  have h3 : ∃ m'', (newMessage 4).read (Delivers [[63, 1, 97, 98]] [64]) = .ok (m'', true, none, []) ∧
      m''.Name = .ok [97] ∧ m''.Payload = .ok [98] := ⟨_, rfl, rfl, rfl⟩
  obtain ⟨m'', h3, -⟩ := h3
  rw [h2] at h3
  simp at h3

/-- C14 is also violated by a reader that returns zero bytes without an error once the buffer is full, which
`io.Reader` permits: a message that fits is refused. -/
theorem C14_zero_read_violated : ∃ (chunks : List Bytes),
    Fits 4 0 (chunks ++ [[]]) ∧ chunks.flatten = [63, 1, 97, 98] ∧
    (∃ m', (newMessage 4).readBytes chunks.flatten = .ok (m', true, none)) ∧
    ∃ m' e, (newMessage 4).read (Delivers chunks []) = .ok (m', false, some e, []) :=
  ⟨[[63, 1, 97, 98], []], by simp [Fits], rfl, ⟨_, rfl⟩, _, _, rfl⟩

/-- C14, non-vacuity: the same signal in three chunks and in one, the last chunk with `io.EOF`. -/
example : Fits 8 0 ([[63], [1, 97], [98]] ++ [[]]) ∧ Fits 8 0 ([] ++ [[63, 1, 97, 98]]) ∧
    (newMessage 8).read (Delivers [[63], [1, 97], [98]] []) = (newMessage 8).read (Delivers [] [63, 1, 97, 98]) ∧
    ∃ m', (newMessage 8).read (Delivers [[63], [1, 97], [98]] []) = .ok (m', true, none, []) ∧
      m'.Payload = .ok [98] := ⟨by simp [Fits], by simp [Fits], rfl, _, rfl, rfl⟩

/-- C14, non-vacuity: a stream of 5 bytes into a buffer of 4. -/
example : Fits 4 0 ([[63, 1], [97, 98], [99]] ++ [[]]) ∧
    ∃ m', (newMessage 4).read (Delivers [[63, 1], [97, 98], [99]] []) =
      .ok (m', false, some "message buffer overflow", []) := ⟨by simp [Fits], _, rfl⟩

end Webwire
