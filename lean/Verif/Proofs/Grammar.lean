import Verif.Proofs.Parse
import Mathlib.Tactic.Common

/-! Helper lemmas: `decode` accepts exactly the specified grammar. -/

set_option autoImplicit false

namespace Webwire

theorem bs_ident {bs : Bytes} (h : 9 ≤ bs.length) :
    bs = byteAt bs 0 :: (idOf bs ++ bs.drop 9) := by
  have : bs.drop 9 = (bs.drop 1).drop 8 := by simp
  rw [this, idOf, List.take_append_drop]
  cases bs with
  | nil => simp at h
  | cons a l => simp [byteAt]

theorem bs_drop {bs : Bytes} (i : Nat) (h : i < bs.length) :
    bs.drop i = byteAt bs i :: bs.drop (i + 1) := by
  rw [List.drop_eq_getElem_cons h]; simp [byteAt, h]

theorem idOf_length {bs : Bytes} (h : 9 ≤ bs.length) : (idOf bs).length = 8 := by
  simp [idOf]; omega

theorem drop_split (bs : Bytes) (i n : Nat) : bs.drop i = (bs.drop i).take n ++ bs.drop (i + n) := by
  rw [← List.drop_drop]; exact (List.take_append_drop _ _).symm

theorem grammar_of_decode {bs : Bytes} {v : Spec.View} (h : decode bs = some v) (hne : bs ≠ []) :
    Spec.Grammar bs v := by
  have hl : 0 < bs.length := List.length_pos_iff.mpr hne
  have hcons : bs = byteAt bs 0 :: bs.drop 1 := by simpa using bs_drop 0 hl
  have full : ∀ i n, i + n ≤ bs.length → ((bs.drop i).take n).length = n := by
    intro i n hi; simp; omega
  unfold decode at h
  dsimp only at h
  by_cases ht : byteAt bs 0 = 23
  · rw [if_pos ht] at h
    split at h
    · cases h
    next hL =>
      have e : bs = 23 :: byteAt bs 1 :: byteAt bs 2 :: byteAt bs 3 :: byteAt bs 4 :: byteAt bs 5 ::
          byteAt bs 6 :: byteAt bs 7 :: byteAt bs 8 :: byteAt bs 9 :: byteAt bs 10 :: bs.drop 11 := by
        conv_lhs => rw [hcons, bs_drop 1 (by omega), bs_drop 2 (by omega), bs_drop 3 (by omega),
          bs_drop 4 (by omega), bs_drop 5 (by omega), bs_drop 6 (by omega), bs_drop 7 (by omega),
          bs_drop 8 (by omega), bs_drop 9 (by omega), bs_drop 10 (by omega), ht]
      rw [Option.some.injEq] at h
      subst h
      conv => arg 1; rw [e]
      rw [ht]
      exact Spec.Grammar.conf _ _ _ _ _ _ _ _ _ _ _
  rw [if_neg ht] at h
  clear ht
  by_cases ht : byteAt bs 0 = 33 ∨ byteAt bs 0 = 22
  · rw [if_pos ht] at h
    split at h
    · cases h
    next hL =>
      rw [Option.some.injEq] at h
      subst h
      obtain ⟨a, rfl⟩ := List.length_eq_one_iff.mp (not_not.mp hL)
      simp only [byteAt, List.getD_cons_zero] at ht ⊢
      rcases ht with rfl | rfl
      · exact .heartbeat
      · exact .sessionClosed
  rw [if_neg ht] at h
  clear ht
  by_cases ht : byteAt bs 0 = 0
  · rw [if_pos ht] at h
    split at h
    · cases h
    next hL =>
      rw [Option.some.injEq] at h
      subst h
      have e := bs_ident (bs := bs) (by omega)
      rw [bs_drop 9 (by omega), drop_split bs 10 (byteAt bs 9).toNat, ht] at e
      conv => arg 1; rw [e]
      rw [ht]
      refine .errorReply _ _ _ _ (idOf_length (by omega)) ?_ ?_
      · rw [full _ _ (by omega)]
      · intro hn
        have := full 10 (byteAt bs 9).toNat (by omega)
        rw [hn] at this; simp at this; omega
  rw [if_neg ht] at h
  clear ht
  by_cases ht : byteAt bs 0 = 21
  · rw [if_pos ht] at h
    split at h
    · cases h
    next hL =>
      rw [Option.some.injEq] at h
      subst h
      rw [ht] at hcons
      conv => arg 1; rw [hcons]
      rw [ht]
      refine .sessionCreated _ ?_
      intro hn
      have := congrArg List.length hn
      simp at this; omega
  rw [if_neg ht] at h
  clear ht
  by_cases ht : byteAt bs 0 = 31
  · rw [if_pos ht] at h
    split at h
    · cases h
    next hL =>
      rw [Option.some.injEq] at h
      subst h
      have e := bs_ident (bs := bs) (by omega)
      rw [ht, List.drop_eq_nil_of_le (by omega), List.append_nil] at e
      conv => arg 1; rw [e]
      rw [ht]
      exact .closeSession _ (idOf_length (by omega))
  rw [if_neg ht] at h
  clear ht
  by_cases ht : byteAt bs 0 = 63 ∨ byteAt bs 0 = 64
  · rw [if_pos ht] at h
    split at h
    · cases h
    next hL =>
      rw [Option.some.injEq] at h
      subst h
      rw [bs_drop 1 (by omega), drop_split bs 2 (byteAt bs 1).toNat] at hcons
      conv => arg 1; rw [hcons]
      refine .signal _ _ _ _ (by simpa using ht) ?_ ?_
      · rw [full _ _ (by omega)]
      · by_contra hn
        push Not at hn
        have := congrArg List.length hn.1
        have := congrArg List.length hn.2
        simp at *; omega
  rw [if_neg ht] at h
  clear ht
  by_cases ht : byteAt bs 0 = 65
  · rw [if_pos ht] at h
    split at h
    · cases h
    next hL =>
      rw [Option.some.injEq] at h
      subst h
      rw [bs_drop 1 (by omega), drop_split bs 2 (byteAt bs 1).toNat,
        drop_split bs (2 + _) ((byteAt bs 1).toNat % 2), ht, ← List.append_assoc] at hcons
      conv => arg 1; rw [hcons]
      rw [ht]
      refine .signal16 _ _ _ _ ?_ ?_ ?_ ?_
      · rw [full _ _ (by omega)]
      · rw [full _ _ (by omega), full _ _ (by omega)]
      · intro hn
        have := congrArg List.length hn
        simp at this; omega
      · simp; omega
  rw [if_neg ht] at h
  clear ht
  by_cases ht : byteAt bs 0 = 127 ∨ byteAt bs 0 = 128
  · rw [if_pos ht] at h
    split at h
    · cases h
    next hL =>
      rw [Option.some.injEq] at h
      subst h
      have e := bs_ident (bs := bs) (by omega)
      rw [bs_drop 9 (by omega), drop_split bs 10 (byteAt bs 9).toNat] at e
      conv => arg 1; rw [e]
      refine .request _ _ _ _ _ (by simpa using ht) (idOf_length (by omega)) ?_ ?_
      · rw [full _ _ (by omega)]
      · by_contra hn
        push Not at hn
        have := congrArg List.length hn.1
        have := congrArg List.length hn.2
        simp at *; omega
  rw [if_neg ht] at h
  clear ht
  by_cases ht : byteAt bs 0 = 129
  · rw [if_pos ht] at h
    split at h
    · cases h
    next hL =>
      rw [Option.some.injEq] at h
      subst h
      have e := bs_ident (bs := bs) (by omega)
      rw [bs_drop 9 (by omega), drop_split bs 10 (byteAt bs 9).toNat,
        drop_split bs (10 + _) ((byteAt bs 9).toNat % 2), ht, ← List.append_assoc] at e
      conv => arg 1; rw [e]
      rw [ht]
      refine .request16 _ _ _ _ _ (idOf_length (by omega)) ?_ ?_ ?_ ?_
      · rw [full _ _ (by omega)]
      · rw [full _ _ (by omega), full _ _ (by omega)]
      · by_contra hn
        push Not at hn
        have := congrArg List.length hn.1
        have := congrArg List.length hn.2
        simp at *; omega
      · simp; omega
  rw [if_neg ht] at h
  clear ht
  by_cases ht : byteAt bs 0 = 191 ∨ byteAt bs 0 = 192
  · rw [if_pos ht] at h
    split at h
    · cases h
    next hL =>
      rw [Option.some.injEq] at h
      subst h
      have e := bs_ident (bs := bs) (by omega)
      conv => arg 1; rw [e]
      exact .reply _ _ _ (by simpa using ht) (idOf_length (by omega))
  rw [if_neg ht] at h
  clear ht
  by_cases ht : byteAt bs 0 = 193
  · rw [if_pos ht] at h
    split at h
    · cases h
    next hL =>
      rw [Option.some.injEq] at h
      subst h
      have e := bs_ident (bs := bs) (by omega)
      rw [bs_drop 9 (by omega), ht] at e
      conv => arg 1; rw [e]
      rw [ht]
      exact .reply16 _ _ _ (idOf_length (by omega)) (by simp; omega)
  rw [if_neg ht] at h
  clear ht
  by_cases ht : byteAt bs 0 = 32
  · rw [if_pos ht] at h
    split at h
    · cases h
    next hL =>
      rw [Option.some.injEq] at h
      subst h
      have e := bs_ident (bs := bs) (by omega)
      rw [ht] at e
      conv => arg 1; rw [e]
      rw [ht]
      refine .restoreSession _ _ (idOf_length (by omega)) ?_
      intro hn
      have := congrArg List.length hn
      simp at this; omega
  rw [if_neg ht] at h
  clear ht
  by_cases ht : byteAt bs 0 = 1 ∨ byteAt bs 0 = 2 ∨ byteAt bs 0 = 3 ∨ byteAt bs 0 = 4 ∨ byteAt bs 0 = 5
  · rw [if_pos ht] at h
    split at h
    · cases h
    next hL =>
      rw [Option.some.injEq] at h
      subst h
      have e := bs_ident (bs := bs) (by omega)
      conv => arg 1; rw [e]
      exact .special _ _ _ (by simpa using ht) (idOf_length (by omega))
  rw [if_neg ht] at h
  clear ht
  cases h

/-! `decode` of composed messages. -/

theorem byteAt_zero (t : UInt8) (l : Bytes) : byteAt (t :: l) 0 = t := rfl

theorem byteAt_nine (t n : UInt8) (id l : Bytes) (h : id.length = 8) :
    byteAt (t :: (id ++ n :: l)) 9 = n := by
  simp only [byteAt, List.getD_eq_getElem?_getD, List.getElem?_cons_succ]
  rw [List.getElem?_append_right (by omega)]
  simp [h]

theorem idOf_cons (t : UInt8) (id l : Bytes) (h : id.length = 8) : idOf (t :: (id ++ l)) = id := by
  simp [idOf, ← h]

theorem drop_nine (t : UInt8) (id l : Bytes) (h : id.length = 8) : (t :: (id ++ l)).drop 9 = l := by
  simp [← h]

theorem drop_ten (t n : UInt8) (id l : Bytes) (k : Nat) (h : id.length = 8) :
    (t :: (id ++ n :: l)).drop (10 + k) = l.drop k := by
  rw [show 10 + k = 9 + (k + 1) by omega, ← List.drop_drop, drop_nine _ _ _ h, List.drop_succ_cons]

theorem len_ident (t : UInt8) (id l : Bytes) (h : id.length = 8) :
    (t :: (id ++ l)).length = 9 + l.length := by simp [h]; omega

theorem decode_of_grammar {bs : Bytes} {v : Spec.View} (h : Spec.Grammar bs v) : decode bs = some v := by
  have nn : ∀ l : Bytes, l ≠ [] → 0 < l.length := fun l h => List.length_pos_iff.mpr h
  cases h with
  | heartbeat => rfl
  | sessionClosed => rfl
  | sessionCreated info hi =>
    have := nn _ hi
    simp [decode, byteAt_zero]; omega
  | closeSession id hid =>
    have e : id = id ++ [] := by simp
    have := idOf_cons 31 id [] hid
    simp at this
    simp [decode, byteAt_zero, hid, this]
  | restoreSession id key hid hk =>
    have := nn _ hk
    simp only [decode, byteAt_zero, len_ident _ _ _ hid, idOf_cons _ _ _ hid, drop_nine _ _ _ hid]
    simp; omega
  | special t id ig ht hid =>
    simp only [List.mem_cons, List.not_mem_nil, or_false] at ht
    simp only [decode, byteAt_zero, len_ident _ _ _ hid, idOf_cons _ _ _ hid, drop_nine _ _ _ hid]
    rcases ht with rfl | rfl | rfl | rfl | rfl <;> simp
  | errorReply id code text n hid hn hc =>
    have := nn _ hc
    have h10 := drop_ten 0 n id (code ++ text) 0 hid
    simp only [Nat.add_zero, List.drop_zero] at h10
    simp only [decode, byteAt_zero, len_ident _ _ _ hid, idOf_cons _ _ _ hid, byteAt_nine _ _ _ _ hid,
      drop_ten _ _ _ _ _ hid, h10, hn]
    have h2 : ¬ code.length = 0 := by omega
    simp [hc]; omega
  | signal t n name payload ht hn hne =>
    have hb : byteAt (t :: n :: (name ++ payload)) 1 = n := rfl
    have hl : 0 < name.length + payload.length := by
      rcases hne with h | h <;> have := nn _ h <;> omega
    have hd : (t :: n :: (name ++ payload)).drop (2 + name.length) = payload := by
      rw [Nat.add_comm]; simp
    simp only [List.mem_cons, List.not_mem_nil, or_false] at ht
    simp only [decode, byteAt_zero, hb, hn, hd]
    rcases ht with rfl | rfl <;> simp <;> omega
  | signal16 n name pad payload hn hp hne he =>
    have hb : byteAt (65 :: n :: (name ++ pad ++ payload)) 1 = n := rfl
    have hl := nn _ hne
    have hd : (65 :: n :: (name ++ pad ++ payload)).drop (2 + name.length + name.length % 2) = payload := by
      rw [show 2 + name.length + name.length % 2 = (name ++ pad).length + 2 by simp [hp]; omega]
      rw [List.drop_succ_cons, List.drop_succ_cons, List.drop_left]
    simp only [decode, byteAt_zero, hb, hn, hd]
    simp [hp]; omega
  | request t n id name payload ht hid hn hne =>
    have hl : 0 < name.length + payload.length := by
      rcases hne with h | h <;> have := nn _ h <;> omega
    have h10 := drop_ten t n id (name ++ payload) 0 hid
    simp only [Nat.add_zero, List.drop_zero] at h10
    simp only [List.mem_cons, List.not_mem_nil, or_false] at ht
    simp only [decode, byteAt_zero, len_ident _ _ _ hid, idOf_cons _ _ _ hid, byteAt_nine _ _ _ _ hid,
      drop_ten _ _ _ _ _ hid, h10, hn]
    rcases ht with rfl | rfl <;> simp <;> omega
  | request16 n id name pad payload hid hn hp hne he =>
    have hl : 0 < name.length + payload.length := by
      rcases hne with h | h <;> have := nn _ h <;> omega
    have h10 := drop_ten 129 n id (name ++ pad ++ payload) 0 hid
    simp only [Nat.add_zero, List.drop_zero] at h10
    have hd : (name ++ pad ++ payload).drop (name.length + name.length % 2) = payload := by
      rw [show name.length + name.length % 2 = (name ++ pad).length by simp [hp], List.drop_left]
    simp only [decode, byteAt_zero, len_ident _ _ _ hid, idOf_cons _ _ _ hid, byteAt_nine _ _ _ _ hid,
      Nat.add_assoc 10, drop_ten _ _ _ _ _ hid, h10, hn, hd]
    simp [hp]; omega
  | reply t id payload ht hid =>
    simp only [List.mem_cons, List.not_mem_nil, or_false] at ht
    simp only [decode, byteAt_zero, len_ident _ _ _ hid, idOf_cons _ _ _ hid, drop_nine _ _ _ hid]
    rcases ht with rfl | rfl <;> simp
  | reply16 pad id payload hid he =>
    have h10 := drop_ten 193 pad id payload 0 hid
    simp only [Nat.add_zero, List.drop_zero] at h10
    simp only [decode, byteAt_zero, len_ident _ _ _ hid, idOf_cons _ _ _ hid, h10]
    simp; omega
  | conf => 
    simp [decode, byteAt]

theorem decode_iff {bs : Bytes} {v : Spec.View} (hne : bs ≠ []) : decode bs = some v ↔ Spec.Grammar bs v :=
  ⟨fun h => grammar_of_decode h hne, decode_of_grammar⟩

end Webwire
