import Verif.Model.Payload
import Mathlib.Tactic.Common
import Mathlib.Tactic.SplitIfs

/-!
# Property C17: `PayloadUtf8`
-/

set_option autoImplicit false

namespace Webwire
namespace Spec

/-- A 16 bit unit in little endian byte order. -/
def le16 (u : Nat) : Bytes := [UInt8.ofNat (u % 256), UInt8.ofNat (u / 256)]

/-- The UTF16 (little endian) encoding of a character. -/
def utf16Char (c : Char) : Bytes :=
  if c.toNat < 0x10000 then le16 c.toNat
  else le16 (0xd800 + (c.toNat - 0x10000) / 1024) ++ le16 (0xdc00 + (c.toNat - 0x10000) % 1024)

/-- The UTF16 encoding of a text. -/
def utf16 (text : List Char) : Bytes := text.flatMap utf16Char

/-- The UTF8 encoding of a text, as defined by Lean's own library. -/
def utf8 (text : List Char) : Bytes := text.flatMap String.utf8EncodeChar

/-- Does this 16 bit unit belong to the surrogates? -/
def Surrogate (u : Nat) : Prop := 0xd800 ≤ u ∧ u < 0xe000

/-- The bytes of U+FFFD in UTF8. -/
def replacement : Bytes := [0xef, 0xbf, 0xbd]

end Spec
open Spec

theorem or_c0 : ∀ n < 32, (0xc0 : UInt8) ||| UInt8.ofNat n = UInt8.ofNat (n % 32 + 0xc0) := by decide
theorem or_e0 : ∀ n < 16, (0xe0 : UInt8) ||| UInt8.ofNat n = UInt8.ofNat (n % 16 + 0xe0) := by decide
set_option maxRecDepth 10000 in
theorem or_80' : ∀ n < 256, (0x80 : UInt8) ||| (UInt8.ofNat n &&& 0x3f) = UInt8.ofNat (n % 64 + 0x80) := by decide

theorem or_80 (n : Nat) : (0x80 : UInt8) ||| (UInt8.ofNat n &&& 0x3f) = UInt8.ofNat (n % 64 + 0x80) := by
  have h := or_80' (n % 256) (by omega)
  have e : UInt8.ofNat n = UInt8.ofNat (n % 256) := by
    apply UInt8.toNat_inj.mp; simp
  rw [e, h]
  congr 2; omega

/-- `EncodeRune` on characters below 0x10000 is the UTF8 encoding. -/
theorem encodeRune_bmp (c : Char) (h : c.toNat < 0x10000) : utf8EncodeRune c.toNat = String.utf8EncodeChar c := by
  have hv : c.toNat < 0xd800 ∨ 0xdfff < c.toNat := by
    rcases c.valid with h1 | h1
    · exact .inl h1
    · exact .inr h1.1
  have e : c.val.toNat = c.toNat := rfl
  unfold utf8EncodeRune String.utf8EncodeChar
  simp only [e, Nat.shiftRight_eq_div_pow]
  generalize c.toNat = v at *
  split_ifs with h1 h2 h3 h4 h5 h6 <;> try omega
  · rfl
  · rw [or_c0 _ (by omega), or_80]
  · rw [or_e0 _ (by omega), or_80, or_80]

theorem unit_toNat (lo hi : UInt8) : (lo.toUInt16 + (hi.toUInt16 <<< 8)).toNat = lo.toNat + 256 * hi.toNat := by
  have h1 := lo.toNat_lt
  have h2 := hi.toNat_lt
  simp only [UInt16.toNat_add, UInt16.toNat_shiftLeft, UInt8.toNat_toUInt16, Nat.shiftLeft_eq]
  have : ((8 : UInt16).toNat % 16) = 8 := rfl
  rw [this]
  omega

theorem decode_one (u : UInt16) :
    utf16Decode [u] = [if 0xd800 ≤ u.toNat ∧ u.toNat < 0xe000 then 0xfffd else u.toNat] := by
  unfold utf16Decode
  have h1 : (u < 0xd800 ∨ 0xe000 ≤ u) ↔ ¬ (0xd800 ≤ u.toNat ∧ u.toNat < 0xe000) := by
    rw [UInt16.lt_iff_toNat_lt, UInt16.le_iff_toNat_le]
    show (u.toNat < 55296 ∨ 57344 ≤ u.toNat) ↔ _
    omega
  by_cases h : 0xd800 ≤ u.toNat ∧ u.toNat < 0xe000
  · rw [if_neg (fun hc => h1.mp hc h), if_pos h]
  · rw [if_pos (h1.mpr h), if_neg h]

/-- closed form of the loop -/
theorem utf8Loop_unit (u : Nat) (hu : u < 65536) (rest out : Bytes) (h : utf8Loop rest = .ok out) :
    utf8Loop (le16 u ++ rest) = .ok (utf8EncodeRune (if 0xd800 ≤ u ∧ u < 0xe000 then 0xfffd else u) ++ out) := by
  have e : ((UInt8.ofNat (u % 256)).toUInt16 + ((UInt8.ofNat (u / 256)).toUInt16 <<< 8)).toNat = u := by
    rw [unit_toNat]
    simp only [UInt8.toNat_ofNat']
    omega
  simp only [le16, List.cons_append, List.nil_append, utf8Loop]
  rw [decode_one, e]
  simp only [h, bind, Except.bind, pure, Except.pure]

theorem utf8Loop_total : ∀ (n : Nat) (data : Bytes), data.length = 2 * n → ∃ out, utf8Loop data = .ok out := by
  intro n
  induction n with
  | zero =>
    intro data h
    have h0 : data = [] := List.length_eq_zero_iff.mp (by omega)
    subst h0; exact ⟨_, rfl⟩
  | succ n ih =>
    intro data h
    match data, h with
    | lo :: hi :: rest, h =>
      obtain ⟨out, ho⟩ := ih rest (by simp at h; omega)
      simp only [utf8Loop, decode_one, ho]
      exact ⟨_, rfl⟩

/-! ## C17 -/

/-- C17, full statement: a UTF16 payload is converted to the UTF8 encoding of the same text. -/
def C17_full : Prop :=
  ∀ text : List Char, payloadUtf8 encUtf16 (utf16 text) = .ok (.ok (utf8 text))

/-- C17 for texts of characters of the basic multilingual plane. Missing compared to `C17_full`: characters
from U+10000 on, for which it is false. -/
theorem C17_utf16_partial (text : List Char) (h : ∀ c ∈ text, c.toNat < 0x10000) :
    payloadUtf8 encUtf16 (utf16 text) = .ok (.ok (utf8 text)) := by
  have key : ∀ t : List Char, (∀ c ∈ t, c.toNat < 0x10000) →
      (utf16 t).length % 2 = 0 ∧ utf8Loop (utf16 t) = .ok (utf8 t) := by
    intro t
    induction t with
    | nil => intro _; exact ⟨rfl, rfl⟩
    | cons c cs ih =>
      intro hc
      obtain ⟨h1, h2⟩ := ih (fun x hx => hc x (List.mem_cons_of_mem _ hx))
      have hcb := hc c List.mem_cons_self
      have hv : ¬ (0xd800 ≤ c.toNat ∧ c.toNat < 0xe000) := by
        have : c.toNat < 0xd800 ∨ 0xdfff < c.toNat := by
          rcases c.valid with h1 | h1
          · exact .inl h1
          · exact .inr h1.1
        omega
      have e : utf16 (c :: cs) = le16 c.toNat ++ utf16 cs := by
        simp [utf16, utf16Char, hcb]
      rw [e]
      refine ⟨by simp [le16]; omega, ?_⟩
      rw [utf8Loop_unit _ hcb _ _ h2, if_neg hv, encodeRune_bmp c hcb]
      rfl
  obtain ⟨h1, h2⟩ := key text h
  unfold payloadUtf8
  rw [if_pos rfl, if_neg (by omega), h2]
  rfl

/-- C17 is violated for characters outside the basic multilingual plane: U+1F600 becomes two replacement
characters, as the loop decodes one 16 bit unit at a time. -/
theorem C17_utf16_violated : ¬ C17_full := by
  intro h
  have h1 := h ['😀']
  have h2 : payloadUtf8 encUtf16 (utf16 ['😀']) = .ok (.ok (replacement ++ replacement)) := by rfl
  rw [h2] at h1
  simp only [Except.ok.injEq] at h1
  exact absurd h1 (by decide)

/-- C17: what happens to each such character: two U+FFFD. -/
theorem C17_supplementary_lost (c : Char) (h : 0x10000 ≤ c.toNat) :
    payloadUtf8 encUtf16 (utf16 [c]) = .ok (.ok (replacement ++ replacement)) := by
  have hv : c.toNat < 0x110000 := by
    rcases c.valid with h1 | h1
    · have : c.toNat < 0xd800 := h1
      omega
    · exact h1.2
  have e : utf16 [c] = le16 (0xd800 + (c.toNat - 0x10000) / 1024) ++
      (le16 (0xdc00 + (c.toNat - 0x10000) % 1024) ++ []) := by
    have : ¬ c.toNat < 0x10000 := by omega
    simp [utf16, utf16Char, this]
  unfold payloadUtf8
  rw [if_pos rfl, e, if_neg (by simp [le16])]
  rw [utf8Loop_unit _ (by omega) _ _ (utf8Loop_unit _ (by omega) [] [] rfl), if_pos (by omega), if_pos (by omega)]
  rfl

/-- C17: what becomes of any text: characters of the basic multilingual plane are converted, each of the others becomes two
U+FFFD. Missing: that these are converted too, which is false. -/
theorem C17_any_text_partial (text : List Char) :
    payloadUtf8 encUtf16 (utf16 text) = .ok (.ok (text.flatMap fun c =>
      if c.toNat < 0x10000 then String.utf8EncodeChar c else replacement ++ replacement)) := by
  have key : ∀ t : List Char, (utf16 t).length % 2 = 0 ∧ utf8Loop (utf16 t) = .ok (t.flatMap fun c =>
      if c.toNat < 0x10000 then String.utf8EncodeChar c else replacement ++ replacement) := by
    intro t
    induction t with
    | nil => exact ⟨rfl, rfl⟩
    | cons c cs ih =>
      obtain ⟨h1, h2⟩ := ih
      have hvalid : c.toNat < 0xd800 ∨ (0xdfff < c.toNat ∧ c.toNat < 0x110000) := c.valid
      by_cases hcb : c.toNat < 0x10000
      · have e : utf16 (c :: cs) = le16 c.toNat ++ utf16 cs := by
          simp [utf16, utf16Char, hcb]
        rw [e]
        refine ⟨by simp [le16]; omega, ?_⟩
        rw [utf8Loop_unit _ hcb _ _ h2, if_neg (by omega), encodeRune_bmp c hcb]
        simp [hcb]
      · have e : utf16 (c :: cs) = le16 (0xd800 + (c.toNat - 0x10000) / 1024) ++
            (le16 (0xdc00 + (c.toNat - 0x10000) % 1024) ++ utf16 cs) := by
          simp [utf16, utf16Char, hcb]
        rw [e]
        refine ⟨by simp [le16]; omega, ?_⟩
        rw [utf8Loop_unit _ (by omega) _ _ (utf8Loop_unit _ (by omega) _ _ h2), if_pos (by omega), if_pos (by omega)]
        simp only [List.flatMap_cons, hcb, if_false, List.append_assoc]
        rfl
  obtain ⟨h1, h2⟩ := key text
  unfold payloadUtf8
  rw [if_pos rfl, if_neg (by omega), h2]
  rfl

theorem utf8_length_supplementary (c : Char) (h : ¬ c.toNat < 0x10000) : (String.utf8EncodeChar c).length = 4 := by
  have e : c.val.toNat = c.toNat := rfl
  unfold String.utf8EncodeChar
  simp only [e]
  rw [if_neg (by omega), if_neg (by omega), if_neg (by omega)]
  rfl

/-- C17: so a text is converted correctly exactly if it consists of characters of the basic multilingual plane: what
`C17_utf16_partial` leaves out is wrong in every case. -/
theorem C17_correct_iff (text : List Char) :
    payloadUtf8 encUtf16 (utf16 text) = .ok (.ok (utf8 text)) ↔ ∀ c ∈ text, c.toNat < 0x10000 := by
  refine ⟨fun h c hc => ?_, C17_utf16_partial text⟩
  rw [C17_any_text_partial] at h
  simp only [Except.ok.injEq] at h
  have key : ∀ t : List Char, (t.flatMap fun c =>
      if c.toNat < 0x10000 then String.utf8EncodeChar c else replacement ++ replacement).length =
        (utf8 t).length + 2 * t.countP (fun c => !decide (c.toNat < 0x10000)) := by
    intro t
    induction t with
    | nil => rfl
    | cons a t ih =>
      by_cases ha : a.toNat < 0x10000
      · simp only [utf8, List.flatMap_cons, List.length_append, ha, if_true, List.countP_cons] at ih ⊢
        simp only [decide_true, Bool.not_true, Bool.false_eq_true, if_false]
        omega
      · have := utf8_length_supplementary a ha
        simp only [utf8, List.flatMap_cons, List.length_append, ha, if_false, List.countP_cons] at ih ⊢
        simp only [decide_false, Bool.not_false, if_true]
        have hr : replacement.length = 3 := rfl
        omega
  have := key text
  rw [h] at this
  have h0 := List.countP_eq_zero.mp (show text.countP (fun c => !decide (c.toNat < 0x10000)) = 0 by omega) c hc
  simpa using h0

/-- C17: the conversion fails exactly for UTF16 payloads of odd length, and never panics. -/
theorem C17_fails_iff_odd (enc : Encoding) (data : Bytes) :
    ∃ r, payloadUtf8 enc data = .ok r ∧ ((∃ e, r = .error e) ↔ enc = 2 ∧ data.length % 2 = 1) := by
  unfold payloadUtf8 encUtf16
  by_cases h1 : enc = 2
  · subst h1
    rw [if_pos rfl]
    by_cases h2 : data.length % 2 = 1
    · rw [if_pos (by omega)]
      exact ⟨_, rfl, by simp [h2]⟩
    · rw [if_neg (by omega)]
      obtain ⟨out, ho⟩ := utf8Loop_total (data.length / 2) data (by omega)
      rw [ho]
      exact ⟨_, rfl, by simp [h2]⟩
  · rw [if_neg h1]
    exact ⟨_, rfl, by simp [h1]⟩

/-- C17: binary and UTF8 payloads (and payloads of unknown encoding) pass through unchanged. -/
theorem C17_passthrough (enc : Encoding) (h : enc ≠ 2) (data : Bytes) :
    payloadUtf8 enc data = .ok (.ok data) := by
  unfold payloadUtf8 encUtf16
  rw [if_neg h]

/-- C17, the method of a received message agrees with its `Payload` and `PayloadEncoding`. -/
theorem C17_message (m : Msg) (enc : Encoding) (data : Bytes) (h1 : m.PayloadEncoding = .ok enc)
    (h2 : m.Payload = .ok data) : m.PayloadUtf8 = payloadUtf8 enc data := by
  unfold Msg.PayloadEncoding at h1
  unfold Msg.Payload at h2
  unfold Msg.PayloadUtf8
  by_cases he : m.isEmpty = true
  · rw [if_pos he] at h1; simp [goPanic] at h1
  · rw [if_neg he] at h1 h2 ⊢
    cases h1; cases h2; rfl

/-- C17, non-vacuity: "aß€" in UTF16. -/
example : utf16 ['a', 'ß', '€'] = [0x61, 0, 0xdf, 0, 0xac, 0x20] ∧
    payloadUtf8 encUtf16 (utf16 ['a', 'ß', '€']) = .ok (.ok [0x61, 0xc3, 0x9f, 0xe2, 0x82, 0xac]) := ⟨by decide, by rfl⟩

/-- The character of a 16 bit unit; U+FFFD for surrogates. -/
def Spec.unitChar (u : Nat) : Char := if 0xd800 ≤ u ∧ u < 0xe000 then '\uFFFD' else Char.ofNat u

/-- C17: what becomes of any 16 bit units at all, texts or not: each is converted by itself, surrogates become U+FFFD.
Missing: that pairs of surrogates are converted, which is false. -/
theorem C17_any_units_partial (units : List Nat) (h : ∀ u ∈ units, u < 0x10000) :
    payloadUtf8 encUtf16 (units.flatMap le16) = .ok (.ok (utf8 (units.map unitChar))) := by
  have key : ∀ t : List Nat, (∀ u ∈ t, u < 0x10000) → (t.flatMap le16).length % 2 = 0 ∧
      utf8Loop (t.flatMap le16) = .ok (utf8 (t.map unitChar)) := by
    intro t
    induction t with
    | nil => intro _; exact ⟨rfl, rfl⟩
    | cons u us ih =>
      intro hu
      obtain ⟨h1, h2⟩ := ih (fun x hx => hu x (List.mem_cons_of_mem _ hx))
      have hu0 := hu u List.mem_cons_self
      refine ⟨by simp [le16] at h1 ⊢; omega, ?_⟩
      simp only [List.flatMap_cons, List.map_cons]
      rw [utf8Loop_unit u hu0 _ _ h2]
      congr 1
      simp only [utf8, List.flatMap_cons]
      congr 1
      by_cases hs : 0xd800 ≤ u ∧ u < 0xe000
      · rw [if_pos hs, unitChar, if_pos hs]
        rfl
      · rw [if_neg hs, unitChar, if_neg hs]
        have hv : Nat.isValidChar u := by
          simp only [Nat.isValidChar]; omega
        have he : (Char.ofNat u).toNat = u := by simp [Char.ofNat, hv, Char.ofNatAux, Char.toNat]
        rw [← encodeRune_bmp _ (by omega), he]
  obtain ⟨h1, h2⟩ := key units h
  unfold payloadUtf8
  rw [if_pos rfl, if_neg (by omega), h2]
  rfl

/-- C17, non-vacuity: "😀" in UTF16 (two surrogates) arrives as two U+FFFD. -/
example : utf16 ['😀'] = [0xd83d, 0xde00].flatMap le16 ∧
    payloadUtf8 encUtf16 (utf16 ['😀']) = .ok (.ok (utf8 ['\uFFFD', '\uFFFD'])) := ⟨by decide, by rfl⟩

theorem or_f0 : ∀ n < 8, (0xf0 : UInt8) ||| UInt8.ofNat n = UInt8.ofNat (n % 8 + 0xf0) := by decide

/-- `EncodeRune` on all characters is the UTF8 encoding. -/
theorem encodeRune_char (c : Char) : utf8EncodeRune c.toNat = String.utf8EncodeChar c := by
  by_cases h : c.toNat < 0x10000
  · exact encodeRune_bmp c h
  · have hv : c.toNat < 0x110000 := by
      rcases c.valid with h1 | h1
      · exact absurd h1 (fun h2 => h (by show c.val.toNat < _; omega))
      · exact h1.2
    have e : c.val.toNat = c.toNat := rfl
    unfold utf8EncodeRune String.utf8EncodeChar
    simp only [e, Nat.shiftRight_eq_div_pow]
    generalize c.toNat = v at *
    have hr : (if v > 0x10ffff ∨ 0xd800 ≤ v ∧ v ≤ 0xdfff then 0xfffd else v) = v := if_neg (by omega)
    rw [hr]
    rw [if_neg (by omega), if_neg (by omega), if_neg (by omega), if_neg (by omega), if_neg (by omega), if_neg (by omega)]
    rw [or_f0 _ (by omega), or_80, or_80, or_80]

/-- The 16 bit units of a text. -/
def Spec.units (text : List Char) : List UInt16 := text.flatMap fun c =>
  if c.toNat < 0x10000 then [UInt16.ofNat c.toNat]
  else [UInt16.ofNat (0xd800 + (c.toNat - 0x10000) / 1024), UInt16.ofNat (0xdc00 + (c.toNat - 0x10000) % 1024)]

/-- C17: that the property fails is not the library's fault. Its `utf16.Decode` and `utf8.EncodeRune`, applied to all units at
once, convert every text. -/
theorem C17_library (text : List Char) : (utf16Decode (units text)).flatMap utf8EncodeRune = utf8 text := by
  have key : utf16Decode (units text) = text.map Char.toNat := by
    induction text with
    | nil => rfl
    | cons c cs ih =>
      have hv : c.toNat < 0xd800 ∨ 0xdfff < c.toNat ∧ c.toNat < 0x110000 := c.valid
      simp only [units, List.flatMap_cons, List.map_cons] at ih ⊢
      generalize hrest : List.flatMap (fun c : Char => if c.toNat < 0x10000 then [UInt16.ofNat c.toNat]
        else [UInt16.ofNat (0xd800 + (c.toNat - 0x10000) / 1024), UInt16.ofNat (0xdc00 + (c.toNat - 0x10000) % 1024)]) cs = rest at ih ⊢
      by_cases h : c.toNat < 0x10000
      · have hu : (UInt16.ofNat c.toNat).toNat = c.toNat := by simp; omega
        have hc : (UInt16.ofNat c.toNat) < 0xd800 ∨ 0xe000 ≤ (UInt16.ofNat c.toNat) := by
          rw [UInt16.lt_iff_toNat_lt, UInt16.le_iff_toNat_le, hu]
          show c.toNat < 55296 ∨ 57344 ≤ c.toNat
          omega
        rw [if_pos h]
        cases rest with
        | nil =>
          simp only [utf16Decode] at ih
          rw [← ih]
          simp only [List.cons_append, List.nil_append, utf16Decode, if_pos hc, hu]
        | cons r rs =>
          simp only [List.cons_append, List.nil_append, utf16Decode, if_pos hc, hu]
          rw [← ih]
      · rw [if_neg h]
        generalize h1 : UInt16.ofNat (0xd800 + (c.toNat - 0x10000) / 1024) = u1
        generalize h2 : UInt16.ofNat (0xdc00 + (c.toNat - 0x10000) % 1024) = u2
        have n1 : u1.toNat = 0xd800 + (c.toNat - 0x10000) / 1024 := by rw [← h1]; simp; omega
        have n2 : u2.toNat = 0xdc00 + (c.toNat - 0x10000) % 1024 := by rw [← h2]; simp; omega
        have hc1 : ¬ (u1 < 0xd800 ∨ 0xe000 ≤ u1) := by
          rw [UInt16.lt_iff_toNat_lt, UInt16.le_iff_toNat_le]
          show ¬ (u1.toNat < 55296 ∨ 57344 ≤ u1.toNat)
          omega
        have hc2 : 0xd800 ≤ u1 ∧ u1 < 0xdc00 ∧ 0xdc00 ≤ u2 ∧ u2 < 0xe000 := by
          simp only [UInt16.lt_iff_toNat_lt, UInt16.le_iff_toNat_le]
          show 55296 ≤ u1.toNat ∧ u1.toNat < 56320 ∧ 56320 ≤ u2.toNat ∧ u2.toNat < 57344
          omega
        simp only [List.cons_append, List.nil_append, utf16Decode, if_neg hc1, if_pos hc2]
        rw [ih, n1, n2]
        congr 1
        omega
  rw [key, utf8, List.flatMap_map]
  simp only [encodeRune_char]

/-- C17, non-vacuity. -/
example : units ['a', '😀'] = [0x61, 0xd83d, 0xde00] ∧ (utf16Decode [0x61, 0xd83d, 0xde00]).flatMap utf8EncodeRune =
    [0x61, 0xf0, 0x9f, 0x98, 0x80] := ⟨by decide, by rfl⟩

end Webwire
