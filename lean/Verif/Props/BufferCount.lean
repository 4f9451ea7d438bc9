import Verif.Model.BufferCount
import Verif.Props.Stream

/-!
# C14: counts that readers report
-/

set_option autoImplicit false

namespace Webwire
open Spec

/-- A reader that reports what it stored. -/
def honest (a : Answer) : Report := ⟨a.1, a.1.length, a.2⟩

private theorem drain_suffix : ∀ (l l' : List Answer), drain l = .ok l' → ∃ p, l = p ++ l'
  | [], _, h => by cases h
  | (a, none) :: l, l', h => by
    obtain ⟨p, rfl⟩ := drain_suffix l l' h
    exact ⟨(a, none) :: p, rfl⟩
  | (a, some e) :: l, l', h => by
    cases h
    exact ⟨[(a, some e)], rfl⟩

/-- C14: for readers that report what they stored, the count does not matter: everything said of `Msg.bufferRead` holds. -/
theorem C14_honest_counts (answers : List Answer) : ∀ (m : Msg) (cursor : Nat),
    m.bufferReadCount cursor (answers.map honest) =
      (m.bufferRead cursor answers).map fun r => (r.1, r.2.1, r.2.2.map honest) := by
  induction answers with
  | nil => intros; rfl
  | cons a rest ih =>
    obtain ⟨bytes, err⟩ := a
    intro m cursor
    simp only [List.map_cons]
    unfold Msg.bufferReadCount Msg.bufferRead
    by_cases hc : cursor ≥ m.buf.length
    · simp only [if_pos hc, honest]
      by_cases he : err = some .eof
      · simp [he, Except.map]
      · simp only [ne_eq, he, not_false_eq_true, if_true, List.map_map]
        have hid : ((fun r : Report => (r.stored, r.err)) ∘ honest) = id := rfl
        rw [hid, List.map_id]
        cases hr : drain rest with
        | error e => rfl
        | ok left =>
          obtain ⟨p, rfl⟩ := drain_suffix _ _ hr
          simp [bind, Except.bind, pure, Except.pure, Except.map]
    · simp only [if_neg hc, honest]
      have h0 : ¬ ((bytes.length : Int) < 0) := by omega
      simp only [h0, if_false, Int.toNat_natCast]
      cases err with
      | none => exact ih _ _
      | some e => cases e <;> rfl

/-- C14: a negative count, if the buffer is not full, is a panic. -/
theorem C14_negative_count (chunks : List Bytes) (r : Report) (rest : List Report) (hr : r.count < 0) :
    ∀ (m : Msg) (cursor : Nat), cursor + chunks.flatten.length < m.buf.length → Fits m.buf.length cursor chunks →
      m.bufferReadCount cursor (chunks.map (fun c => honest (c, none)) ++ r :: rest) = goPanic "negative read len" := by
  induction chunks with
  | nil =>
    intro m cursor h _
    simp only [List.flatten_nil, List.length_nil, Nat.add_zero] at h
    simp only [List.map_nil, List.nil_append]
    unfold Msg.bufferReadCount
    rw [if_neg (by omega)]
    simp only [hr, if_true]
  | cons c cs ih =>
    intro m cursor h hf
    simp only [List.flatten_cons, List.length_append] at h
    simp only [Fits] at hf
    simp only [List.map_cons, List.cons_append]
    unfold Msg.bufferReadCount
    rw [if_neg (by omega)] at hf ⊢
    simp only [honest]
    have h0 : ¬ ((c.length : Int) < 0) := by omega
    simp only [h0, if_false, Int.toNat_natCast]
    have hsl : (storeAt m.buf cursor c).length = m.buf.length := by simp [storeAt, goCopy]; omega
    exact ih { m with buf := storeAt m.buf cursor c } (cursor + c.length) (by simp only [hsl]; omega)
      (by simp only [hsl]; exact hf.2)

/-- C14: otherwise counts are trusted. What a reader reports beyond what it stored are bytes that were in the buffer before,
those of earlier messages if the message object was used before. -/
theorem C14_trusts_counts (m : Msg) (stored : Bytes) (n : Nat) (hs : stored.length ≤ n) (hn : n ≤ m.buf.length) (h0 : 0 < n) :
    ∃ m', m.bufferReadCount 0 [⟨stored, n, some .eof⟩] = .ok (m', none, []) ∧
      m'.buf.take m'.len = stored ++ (m.buf.take n).drop stored.length := by
  unfold Msg.bufferReadCount
  rw [if_neg (by omega)]
  have h1 : ¬ ((n : Int) < 0) := by omega
  simp only [h1, if_false]
  refine ⟨_, rfl, ?_⟩
  simp only [Int.toNat_natCast, Nat.zero_add, storeAt, List.take_zero, List.drop_zero, List.nil_append, goCopy]
  rw [List.take_of_length_le (by omega : stored.length ≤ m.buf.length), List.take_append, List.take_of_length_le hs,
    List.drop_take]

/-- C14, non-vacuity: a reader that stores nothing and reports five bytes gets the signal read before. -/
example : ∃ m1 m2, (newMessage 8).readBytes [63, 1, 97, 98, 99] = .ok (m1, true, none) ∧
    m1.close.1.bufferReadCount 0 [⟨[], 5, some .eof⟩] = .ok (m2, none, []) ∧ m2.buf.take m2.len = [63, 1, 97, 98, 99] :=
  ⟨_, _, rfl, rfl, rfl⟩

/-- C14, non-vacuity: one byte, then a negative count. -/
example : (newMessage 8).bufferReadCount 0 ([[63]].map (fun c => honest (c, none)) ++ [⟨[], -1, none⟩]) =
    goPanic "negative read len" ∧ Fits 8 0 [[63]] := ⟨rfl, by simp [Fits]⟩

end Webwire
