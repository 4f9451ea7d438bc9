import Mathlib.Tactic.Common

/-!
# Go maps

A Go map is an association list; its order carries no meaning (Go iterates in random order), so nothing may
be proved about it and iteration orders are parameters wherever they matter.
-/

set_option autoImplicit false

namespace Webwire

/-- `map[α]β` -/
abbrev GoMap (α β : Type) := List (α × β)

namespace GoMap

variable {α β : Type} [DecidableEq α]

/-- `v, ok := m[k]` -/
def get : GoMap α β → α → Option β
  | [], _ => none
  | (a, b) :: t, k => if a = k then some b else get t k

/-- `delete(m, k)` -/
def del (m : GoMap α β) (k : α) : GoMap α β := m.filter fun e => decide (e.1 ≠ k)

/-- `m[k] = v` -/
def set (m : GoMap α β) (k : α) (v : β) : GoMap α β := (k, v) :: del m k

/-- the keys -/
def keys (m : GoMap α β) : List α := m.map (·.1)

/-- Every Go map holds a key at most once. -/
def WF (m : GoMap α β) : Prop := (keys m).Nodup

theorem get_del (m : GoMap α β) (k k' : α) : (del m k).get k' = if k = k' then none else m.get k' := by
  induction m with
  | nil => simp [del, get]
  | cons e t ih =>
    obtain ⟨a, b⟩ := e
    by_cases h : a = k
    · have : del ((a, b) :: t) k = del t k := by simp [del, h]
      rw [this, ih]
      subst h
      by_cases hk : a = k' <;> simp [get, hk]
    · have : del ((a, b) :: t) k = (a, b) :: del t k := by simp [del, h]
      rw [this]
      by_cases hk : k = k'
      · subst hk
        rw [if_pos rfl] at *
        simp [get, h, ih]
      · rw [if_neg hk] at *
        simp only [get, ih]

theorem get_set (m : GoMap α β) (k k' : α) (v : β) : (set m k v).get k' = if k = k' then some v else m.get k' := by
  simp only [set, get, get_del]
  split_ifs <;> rfl

theorem get_set_self (m : GoMap α β) (k : α) (v : β) : (set m k v).get k = some v := by simp [get_set]

theorem get_set_ne (m : GoMap α β) {k k' : α} (v : β) (h : k ≠ k') : (set m k v).get k' = m.get k' := by
  simp [get_set, h]

theorem mem_keys (m : GoMap α β) (k : α) : k ∈ keys m ↔ m.get k ≠ none := by
  induction m with
  | nil => simp [keys, get]
  | cons e t ih =>
    obtain ⟨a, b⟩ := e
    simp only [keys, List.map_cons, List.mem_cons, get] at *
    by_cases h : a = k
    · simp [h]
    · simp only [if_neg h, ← ih]
      constructor
      · rintro (h' | h')
        · exact absurd h'.symm h
        · exact h'
      · exact .inr

omit [DecidableEq α] in
theorem wf_nil : WF ([] : GoMap α β) := List.nodup_nil

theorem wf_del {m : GoMap α β} (h : WF m) (k : α) : WF (del m k) :=
  List.Nodup.sublist (List.Sublist.map _ List.filter_sublist) h

theorem wf_set {m : GoMap α β} (h : WF m) (k : α) (v : β) : WF (set m k v) := by
  unfold WF keys set
  rw [List.map_cons, List.nodup_cons]
  refine ⟨?_, wf_del h k⟩
  show k ∉ keys (del m k)
  rw [mem_keys, get_del]
  simp

end GoMap

end Webwire
