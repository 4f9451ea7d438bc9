import Verif.Model.SessionKey

/-!
# Session keys (C44)
-/

set_option autoImplicit false

namespace Webwire.Key

/-- Letters, digits, minus and underscore: characters that stand for themselves in URLs (RFC 3986, unreserved). -/
def UrlSafe (c : UInt8) : Prop :=
  (65 ≤ c ∧ c ≤ 90) ∨ (97 ≤ c ∧ c ≤ 122) ∨ (48 ≤ c ∧ c ≤ 57) ∨ c = 45 ∨ c = 95

instance (c : UInt8) : Decidable (UrlSafe c) := by unfold UrlSafe; infer_instance

set_option maxRecDepth 100000 in
theorem digit_safe (v : Nat) : UrlSafe (digit v) := by
  have h : ∀ i < 64, UrlSafe (alphabet[i]?.getD 0) := by decide
  exact h (v % 64) (Nat.mod_lt _ (by decide))

set_option maxRecDepth 100000 in
theorem digit_inj {v w : Nat} (h : digit v = digit w) : v % 64 = w % 64 := by
  have key : ∀ i < 64, alphabet.idxOf (alphabet[i]?.getD 0) = i := by decide
  have hv := key (v % 64) (Nat.mod_lt _ (by decide))
  have hw := key (w % 64) (Nat.mod_lt _ (by decide))
  simp only [digit] at h
  rw [h] at hv
  omega

theorem digit_ne_pad (v : Nat) : digit v ≠ pad := by
  intro h
  have := digit_safe v
  rw [h] at this
  exact absurd this (by decide)

/-- C44: every n bytes are encoded to 4·⌈n/3⌉ characters. -/
theorem C44_length_all (x : Bytes) : (encode x).length = (x.length + 2) / 3 * 4 := by
  induction x using encode.induct with
  | case1 a b c rest ih =>
    simp only [encode, List.length_cons, ih]
    omega
  | case2 a b => simp [encode]
  | case3 a => simp [encode]
  | case4 => simp [encode]

/-- C44: different byte strings have different encodings. -/
theorem C44_injective (x y : Bytes) (h : encode x = encode y) : x = y := by
  induction x using encode.induct generalizing y with
  | case1 a b c rest ih =>
    have := a.toNat_lt; have := b.toNat_lt; have := c.toNat_lt
    match y with
    | a' :: b' :: c' :: rest' =>
      have := a'.toNat_lt; have := b'.toNat_lt; have := c'.toNat_lt
      simp only [encode, List.cons.injEq] at h
      obtain ⟨h1, h2, h3, h4, h5⟩ := h
      replace h1 := digit_inj h1
      replace h2 := digit_inj h2
      replace h3 := digit_inj h3
      replace h4 := digit_inj h4
      have ea : a = a' := UInt8.toNat_inj.mp (by omega)
      have eb : b = b' := UInt8.toNat_inj.mp (by omega)
      have ec : c = c' := UInt8.toNat_inj.mp (by omega)
      rw [ea, eb, ec, ih _ h5]
    | [a', b'] =>
      simp only [encode, List.cons.injEq] at h
      exact absurd h.2.2.2.1 (digit_ne_pad _)
    | [a'] =>
      simp only [encode, List.cons.injEq] at h
      exact absurd h.2.2.2.1 (digit_ne_pad _)
    | [] => simp [encode] at h
  | case2 a b =>
    have := a.toNat_lt; have := b.toNat_lt
    match y with
    | a' :: b' :: c' :: rest' =>
      simp only [encode, List.cons.injEq] at h
      exact absurd h.2.2.2.1.symm (digit_ne_pad _)
    | [a', b'] =>
      have := a'.toNat_lt; have := b'.toNat_lt
      simp only [encode, List.cons.injEq] at h
      obtain ⟨h1, h2, h3, _⟩ := h
      replace h1 := digit_inj h1
      replace h2 := digit_inj h2
      replace h3 := digit_inj h3
      have ea : a = a' := UInt8.toNat_inj.mp (by omega)
      have eb : b = b' := UInt8.toNat_inj.mp (by omega)
      rw [ea, eb]
    | [a'] =>
      simp only [encode, List.cons.injEq] at h
      exact absurd h.2.2.1 (digit_ne_pad _)
    | [] => simp [encode] at h
  | case3 a =>
    have := a.toNat_lt
    match y with
    | a' :: b' :: c' :: rest' =>
      simp only [encode, List.cons.injEq] at h
      exact absurd h.2.2.2.1.symm (digit_ne_pad _)
    | [a', b'] =>
      simp only [encode, List.cons.injEq] at h
      exact absurd h.2.2.1.symm (digit_ne_pad _)
    | [a'] =>
      have := a'.toNat_lt
      simp only [encode, List.cons.injEq] at h
      obtain ⟨h1, h2, _⟩ := h
      replace h1 := digit_inj h1
      replace h2 := digit_inj h2
      have ea : a = a' := UInt8.toNat_inj.mp (by omega)
      rw [ea]
    | [] => simp [encode] at h
  | case4 =>
    match y with
    | a' :: b' :: c' :: rest' => simp [encode] at h
    | [a', b'] => simp [encode] at h
    | [a'] => simp [encode] at h
    | [] => rfl

theorem encode_safe (n : Nat) (x : Bytes) (hx : x.length = 3 * n) : ∀ c ∈ encode x, UrlSafe c := by
  induction n generalizing x with
  | zero => have : x = [] := List.length_eq_zero_iff.mp (by omega); subst this; simp [encode]
  | succ n ih =>
    match x with
    | a :: b :: c :: rest =>
      intro d hd
      simp only [encode, List.mem_cons] at hd
      rcases hd with rfl | rfl | rfl | rfl | hd
      · exact digit_safe _
      · exact digit_safe _
      · exact digit_safe _
      · exact digit_safe _
      · exact ih rest (by simp at hx; omega) d hd
    | [_, _] => simp at hx; omega
    | [_] => simp at hx; omega
    | [] => simp at hx

/-- C44: if the random number generator works, the generated key has 64 characters, all URL-safe (no padding). -/
theorem C44_key (read : Nat → Option Bytes) (x : Bytes) (hr : read 48 = some x) (hx : x.length = 48) :
    ∃ key, generateSessionKey read = .ok key ∧ key.length = 64 ∧ ∀ c ∈ key, UrlSafe c :=
  ⟨encode x, by simp [generateSessionKey, generateRandomBytes, hr], by rw [C44_length_all, hx],
    encode_safe 16 x hx⟩

/-- C44: equal keys come from equal random bytes. -/
theorem C44_unique (read1 read2 : Nat → Option Bytes) (key : Bytes) (h1 : generateSessionKey read1 = .ok key)
    (h2 : generateSessionKey read2 = .ok key) : ∃ x, read1 48 = some x ∧ read2 48 = some x := by
  simp only [generateSessionKey, generateRandomBytes] at h1 h2
  split at h1
  · cases h1
  · rename_i x1 hx1
    split at h2
    · cases h2
    · rename_i x2 hx2
      simp only [Except.ok.injEq] at h1 h2
      have := C44_injective x1 x2 (h1.trans h2.symm)
      subst this
      exact ⟨x1, hx1, hx2⟩

/-- C44: a broken random number generator makes the server panic instead of using a weak key. -/
theorem C44_no_random (read : Nat → Option Bytes) (hr : read 48 = none) :
    ∃ why, generateSessionKey read = .error (.panic why) :=
  ⟨_, by simp [generateSessionKey, generateRandomBytes, hr]; rfl⟩

/-- C44: sessions with keys of the default generator are created, under those keys and with that info. -/
theorem C44_new_session (read : Nat → Option Bytes) (x : Bytes) (hr : read 48 = some x) (hx : x.length = 48)
    (info : Option Nat) : ∃ key, generateSessionKey read = .ok key ∧
      newSession info (generateSessionKey read) = .ok ⟨key, info⟩ := by
  obtain ⟨key, hk, hl, _⟩ := C44_key read x hr hx
  refine ⟨key, hk, ?_⟩
  rw [hk]
  simp only [newSession, bind, Except.bind]
  rw [if_neg (by omega)]

/-- C44: no generator can give a session without key; every other key it returns is taken as it is, and nothing else is
changed. -/
theorem C44_nonempty (info : Option Nat) (gen : Go Bytes) (s : NewSession) :
    newSession info gen = .ok s ↔ gen = .ok s.key ∧ s.key ≠ [] ∧ s.info = info := by
  cases gen with
  | error e => simp [newSession, bind, Except.bind]
  | ok key =>
    obtain ⟨k, i⟩ := s
    simp only [newSession, bind, Except.bind]
    cases key with
    | nil => simp [goPanic]; rintro rfl; simp
    | cons a l => simp; grind

/-- The shortest key. -/
example : newSession (some 3) (.ok [0]) = .ok ⟨[0], some 3⟩ := rfl

example : generateSessionKey (fun n => some (List.replicate n 255)) = .ok (List.replicate 64 95) := rfl
example : encode [77, 97, 110] = [84, 87, 70, 117] := by decide  -- "Man" ↦ "TWFu"
example : encode [77, 97] = [84, 87, 69, 61] := by decide  -- "Ma" ↦ "TWE="

end Webwire.Key
