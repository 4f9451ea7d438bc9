import Verif.Model.SessionJson
import Verif.Props.Payload

/-!
# UTF-8: what `sanitize` keeps
-/

set_option autoImplicit false

namespace Webwire.Json
open Spec

theorem lt_nat (a b : UInt8) : a < b ↔ a.toNat < b.toNat := UInt8.lt_iff_toNat_lt
theorem le_nat (a b : UInt8) : a ≤ b ↔ a.toNat ≤ b.toNat := UInt8.le_iff_toNat_le
theorem eq_nat (a b : UInt8) : a = b ↔ a.toNat = b.toNat := UInt8.toNat_inj.symm

theorem encode_eq (c : Char) : String.utf8EncodeChar c =
    if c.toNat ≤ 0x7f then [UInt8.ofNat c.toNat]
    else if c.toNat ≤ 0x7ff then [UInt8.ofNat (c.toNat / 64 % 32 + 0xc0), UInt8.ofNat (c.toNat % 64 + 0x80)]
    else if c.toNat ≤ 0xffff then [UInt8.ofNat (c.toNat / 4096 % 16 + 0xe0), UInt8.ofNat (c.toNat / 64 % 64 + 0x80),
      UInt8.ofNat (c.toNat % 64 + 0x80)]
    else [UInt8.ofNat (c.toNat / 262144 % 8 + 0xf0), UInt8.ofNat (c.toNat / 4096 % 64 + 0x80),
      UInt8.ofNat (c.toNat / 64 % 64 + 0x80), UInt8.ofNat (c.toNat % 64 + 0x80)] := by
  rfl

theorem char_bounds (c : Char) : c.toNat < 0xd800 ∨ (0xdfff < c.toNat ∧ c.toNat < 0x110000) := c.valid

theorem runeLen_encode (c : Char) (rest : Bytes) :
    runeLen (String.utf8EncodeChar c ++ rest) = (String.utf8EncodeChar c).length := by
  have hb := char_bounds c
  rw [encode_eq]
  generalize c.toNat = v at *
  split_ifs with h1 h2 h3
  · simp only [List.cons_append, List.nil_append, runeLen, List.length_cons, List.length_nil]
    rw [if_pos]
    rw [lt_nat, UInt8.toNat_ofNat']
    show _ < 128
    omega
  · simp only [List.cons_append, List.nil_append, runeLen, List.length_cons, List.length_nil, isCont]
    simp only [lt_nat, le_nat, UInt8.toNat_ofNat', Bool.and_eq_true, decide_eq_true_eq, UInt8.reduceToNat]
    rw [if_neg (by omega), if_pos (by omega), if_pos (by omega)]
  · simp only [List.cons_append, List.nil_append, runeLen, List.length_cons, List.length_nil, isCont]
    simp only [lt_nat, le_nat, UInt8.toNat_ofNat', Bool.and_eq_true, decide_eq_true_eq, UInt8.reduceToNat,
      Bool.not_eq_true', Bool.and_eq_false_iff, beq_eq_false_iff_ne, ne_eq, eq_nat, decide_eq_false_iff_not]
    rw [if_neg (by omega), if_neg (by omega), if_pos (by omega), if_pos]
    omega
  · simp only [List.cons_append, List.nil_append, runeLen, List.length_cons, List.length_nil, isCont]
    simp only [lt_nat, le_nat, UInt8.toNat_ofNat', Bool.and_eq_true, decide_eq_true_eq, UInt8.reduceToNat,
      Bool.not_eq_true', Bool.and_eq_false_iff, beq_eq_false_iff_ne, ne_eq, eq_nat, decide_eq_false_iff_not]
    rw [if_neg (by omega), if_neg (by omega), if_neg (by omega), if_pos (by omega), if_pos]
    omega

theorem char_of (v : Nat) (h : v < 0xd800 ∨ (0xdfff < v ∧ v < 0x110000)) : ∃ c : Char, c.toNat = v :=
  ⟨Char.ofNatAux v h, by
    simp only [Char.toNat, Char.ofNatAux]
    rw [UInt32.toNat, BitVec.toNat_ofNatLT]⟩

theorem ofNat_eq (a : UInt8) (n : Nat) (h : n = a.toNat) : UInt8.ofNat n = a := by
  subst h; simp

theorem runeLen_char (s : Bytes) (h : runeLen s ≠ 0) : ∃ c : Char, s.take (runeLen s) = String.utf8EncodeChar c := by
  match s with
  | [] => exact absurd rfl h
  | a :: s =>
    have ha := a.toNat_lt
    have ec : ∀ x : UInt8, isCont x = true ↔ 0x80 ≤ x.toNat ∧ x.toNat ≤ 0xbf := by
      intro x
      simp only [isCont, le_nat, Bool.and_eq_true, decide_eq_true_eq, UInt8.reduceToNat]
    simp only [runeLen] at h ⊢
    split_ifs at h ⊢ with h1 h2 h3 h4
    · rw [lt_nat] at h1
      simp only [UInt8.reduceToNat] at h1
      obtain ⟨c, hc⟩ := char_of a.toNat (by omega)
      refine ⟨c, ?_⟩
      rw [encode_eq, hc, if_pos (by omega), ofNat_eq a _ rfl]
      rfl
    · simp only [le_nat, UInt8.reduceToNat] at h2
      match s with
      | [] => exact absurd rfl h
      | b :: s =>
        simp only at h ⊢
        split_ifs at h ⊢ with h5
        · rw [ec] at h5
          obtain ⟨c, hc⟩ := char_of ((a.toNat - 0xc0) * 64 + (b.toNat - 0x80)) (by omega)
          refine ⟨c, ?_⟩
          rw [encode_eq, hc, if_neg (by omega), if_pos (by omega), ofNat_eq a _ (by omega), ofNat_eq b _ (by omega)]
          rfl
        · exact absurd rfl h
    · simp only [le_nat, UInt8.reduceToNat] at h3
      match s with
      | [] => exact absurd rfl h
      | [_] => exact absurd rfl h
      | b :: d :: s =>
        simp only at h ⊢
        split_ifs at h ⊢ with h5
        · simp only [Bool.and_eq_true, ec, Bool.not_eq_true', Bool.and_eq_false_iff, beq_eq_false_iff_ne, ne_eq, eq_nat,
            decide_eq_false_iff_not, lt_nat, UInt8.reduceToNat] at h5
          obtain ⟨c, hc⟩ := char_of ((a.toNat - 0xe0) * 4096 + (b.toNat - 0x80) * 64 + (d.toNat - 0x80)) (by omega)
          refine ⟨c, ?_⟩
          rw [encode_eq, hc, if_neg (by omega), if_neg (by omega), if_pos (by omega), ofNat_eq a _ (by omega),
            ofNat_eq b _ (by omega), ofNat_eq d _ (by omega)]
          rfl
        · exact absurd rfl h
    · simp only [le_nat, UInt8.reduceToNat] at h4
      match s with
      | [] => exact absurd rfl h
      | [_] => exact absurd rfl h
      | [_, _] => exact absurd rfl h
      | b :: d :: e :: s =>
        simp only at h ⊢
        split_ifs at h ⊢ with h5
        · simp only [Bool.and_eq_true, ec, Bool.not_eq_true', Bool.and_eq_false_iff, beq_eq_false_iff_ne, ne_eq, eq_nat,
            decide_eq_false_iff_not, lt_nat, UInt8.reduceToNat] at h5
          obtain ⟨c, hc⟩ := char_of ((a.toNat - 0xf0) * 262144 + (b.toNat - 0x80) * 4096 + (d.toNat - 0x80) * 64 +
            (e.toNat - 0x80)) (by omega)
          refine ⟨c, ?_⟩
          rw [encode_eq, hc, if_neg (by omega), if_neg (by omega), if_neg (by omega), ofNat_eq a _ (by omega),
            ofNat_eq b _ (by omega), ofNat_eq d _ (by omega), ofNat_eq e _ (by omega)]
          rfl
        · exact absurd rfl h
    · exact absurd rfl h

theorem encode_pos (c : Char) : 0 < (String.utf8EncodeChar c).length := by
  rw [encode_eq]
  split_ifs <;> simp

/-- Texts are kept. -/
theorem sanitizeN_utf8 (cs : List Char) : ∀ n, (utf8 cs).length ≤ n → sanitizeN n (utf8 cs) = utf8 cs := by
  induction cs with
  | nil => intro n _; cases n <;> rfl
  | cons c cs ih =>
    intro n hn
    have e : utf8 (c :: cs) = String.utf8EncodeChar c ++ utf8 cs := rfl
    have hp := encode_pos c
    rw [e] at hn ⊢
    rw [List.length_append] at hn
    cases n with
    | zero => omega
    | succ n =>
      have hr := runeLen_encode c (utf8 cs)
      generalize hx : String.utf8EncodeChar c = x at *
      cases x with
      | nil => simp at hp
      | cons a x =>
        simp only [List.cons_append] at *
        rw [sanitizeN, hr, if_neg (by omega)]
        rw [show a :: (x ++ utf8 cs) = (a :: x) ++ utf8 cs from rfl, List.take_left, List.drop_left, ih n (by simp at hn; omega)]

/-- Only texts come out. -/
theorem sanitizeN_text : ∀ (n : Nat) (s : Bytes), ∃ cs, sanitizeN n s = utf8 cs := by
  intro n
  induction n with
  | zero => intro s; exact ⟨[], rfl⟩
  | succ n ih =>
    intro s
    cases s with
    | nil => exact ⟨[], rfl⟩
    | cons a s =>
      rw [sanitizeN]
      split_ifs with h
      · obtain ⟨cs, hcs⟩ := ih s
        refine ⟨'�' :: cs, ?_⟩
        rw [hcs]
        rfl
      · obtain ⟨c, hc⟩ := runeLen_char _ h
        obtain ⟨cs, hcs⟩ := ih ((a :: s).drop (runeLen (a :: s)))
        exact ⟨c :: cs, by rw [hc, hcs]; rfl⟩

theorem sanitize_utf8 (cs : List Char) : sanitize (utf8 cs) = utf8 cs := sanitizeN_utf8 cs _ (Nat.le_refl _)

theorem sanitize_text (s : Bytes) : ∃ cs, sanitize s = utf8 cs := sanitizeN_text _ s

end Webwire.Json
