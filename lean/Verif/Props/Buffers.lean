import Verif.Model.Buffers
import Mathlib.Data.List.Basic

/-!
# C70: messages of different requests do not mix
-/

set_option autoImplicit false

namespace Webwire.Buffers

variable {X : Type}

/-- The message object the goroutine has. -/
def PC.obj : PC X → Option Nat
  | .getting => none
  | .filling m | .handling m _ _ | .closing m _ => some m

/-- The objects of all goroutines, each as often as it is held. -/
def held (ts : List (PC X)) : List Nat := ts.filterMap PC.obj

/-- What a hook sees in its message is what was received for it. -/
def SeesOwn (s : State X) : Prop := ∀ m x rd, .handling m x rd ∈ s.threads → s.g.holds m = some x

/-- No two goroutines have the same message object, and none of these objects is in the pool, from where another reader
could take it. -/
def Exclusive (s : State X) : Prop := (held s.threads ++ s.g.pool).Nodup

/-- Hooks do not close messages. -/
def NoUserClose : Label → Prop
  | .userClose _ => False
  | _ => True

structure Inv (s : State X) : Prop where
  excl : Exclusive s
  sees : SeesOwn s
  made : ∀ m ∈ held s.threads ++ s.g.pool, m < s.g.made

theorem held_append (a b : List (PC X)) : held (a ++ b) = held a ++ held b := List.filterMap_append

theorem held_mem {m : Nat} {pc : PC X} {ts : List (PC X)} (h : pc ∈ ts) (ho : pc.obj = some m) : m ∈ held ts :=
  List.mem_filterMap.mpr ⟨pc, h, ho⟩

theorem Inv.act {g g' : G X} {pre post pcs : List (PC X)} {pc : PC X} (hi : Inv ⟨g, pre ++ pc :: post⟩)
    (ha : Act g pc g' pcs) : Inv ⟨g', pre ++ (pcs ++ post)⟩ := by
  obtain ⟨h1, h2, h3⟩ := hi
  -- everything held by the other goroutines
  have key : ∀ g2 : G X, ∀ l : List (PC X), (held (pre ++ (l ++ post)) ++ g2.pool).Perm
      (held l ++ (held (pre ++ post) ++ g2.pool)) := by
    intro g2 l
    simp only [held_append, ← List.append_assoc]
    exact (List.perm_append_comm.append_right _).append_right _
  have hsee : ∀ m x rd, .handling m x rd ∈ pre ++ post → g.holds m = some x := fun m x rd hm =>
    h2 m x rd (by simp only [List.mem_append, List.mem_cons] at hm ⊢; tauto)
  have hmem : ∀ m x rd, .handling m x rd ∈ pre ++ post → m ∈ held (pre ++ post) ++ g.pool := fun m x rd hm =>
    List.mem_append_left _ (held_mem hm rfl)
  have h1' : (held [pc] ++ (held (pre ++ post) ++ g.pool)).Nodup := ((key g [pc]).nodup_iff).mp h1
  have h3' : ∀ m ∈ held [pc] ++ (held (pre ++ post) ++ g.pool), m < g.made := fun m hm =>
    h3 m ((key g [pc]).mem_iff.mpr hm)
  suffices hs : (held pcs ++ (held (pre ++ post) ++ g'.pool)).Nodup ∧
      (∀ m x rd, .handling m x rd ∈ pcs ++ (pre ++ post) → g'.holds m = some x) ∧
      ∀ m ∈ held pcs ++ (held (pre ++ post) ++ g'.pool), m < g'.made by
    refine ⟨((key g' pcs).nodup_iff).mpr hs.1, fun m x rd hm => hs.2.1 m x rd ?_, fun m hm =>
      hs.2.2 m ((key g' pcs).mem_iff.mp hm)⟩
    simp only [List.mem_append] at hm ⊢
    tauto
  generalize pre ++ post = rest at *
  cases ha with
  | getNew =>
    refine ⟨?_, ?_, ?_⟩
    · simp only [held, List.filterMap_cons, PC.obj, List.filterMap_nil, List.cons_append, List.nil_append,
        List.nodup_cons] at h1' h3' ⊢
      exact ⟨fun hm => Nat.lt_irrefl _ (h3' _ hm), h1'⟩
    · intro m x rd hm
      simp at hm
      exact hsee m x rd hm
    · intro m hm
      simp only [held, List.filterMap_cons, PC.obj, List.filterMap_nil, List.cons_append, List.nil_append,
        List.mem_cons] at hm h3' ⊢
      rcases hm with rfl | hm
      · exact Nat.lt_succ_self _
      · exact Nat.lt_succ_of_lt (h3' m hm)
  | getPooled m hm =>
    have hp : (held rest ++ g.pool).Perm (m :: (held rest ++ g.pool.erase m)) :=
      (List.Perm.append_left _ (List.perm_cons_erase hm)).trans List.perm_middle
    simp only [held, List.filterMap_cons, PC.obj, List.filterMap_nil, List.cons_append, List.nil_append] at h1' h3' ⊢
    refine ⟨(hp.nodup_iff).mp h1', ?_, fun x hx => h3' x (hp.mem_iff.mpr hx)⟩
    intro m x rd hm
    simp at hm
    exact hsee m x rd hm
  | readErr m x =>
    simp only [held, List.filterMap_cons, PC.obj, List.filterMap_nil, List.cons_append, List.nil_append, G.put] at h1' h3' ⊢
    refine ⟨h1', ?_, h3'⟩
    intro m' x' rd hm
    simp at hm
    have hne : m' ≠ m := by
      rintro rfl
      exact (List.nodup_cons.mp h1').1 (hmem m' x' rd hm)
    simp only [if_neg hne]
    exact hsee m' x' rd hm
  | readInline m x =>
    simp only [held, List.filterMap_cons, PC.obj, List.filterMap_nil, List.cons_append, List.nil_append, G.put] at h1' h3' ⊢
    refine ⟨h1', ?_, h3'⟩
    intro m' x' rd hm
    simp at hm
    rcases hm with ⟨rfl, rfl, _⟩ | hm
    · simp
    · have hne : m' ≠ m := by
        rintro rfl
        exact (List.nodup_cons.mp h1').1 (hmem m' x' rd hm)
      simp only [if_neg hne]
      exact hsee m' x' rd hm
  | readSpawn m x =>
    simp only [held, List.filterMap_cons, PC.obj, List.filterMap_nil, List.cons_append, List.nil_append, G.put] at h1' h3' ⊢
    refine ⟨h1', ?_, h3'⟩
    intro m' x' rd hm
    simp at hm
    rcases hm with ⟨rfl, rfl, _⟩ | hm
    · simp
    · have hne : m' ≠ m := by
        rintro rfl
        exact (List.nodup_cons.mp h1').1 (hmem m' x' rd hm)
      simp only [if_neg hne]
      exact hsee m' x' rd hm
  | done m x rd =>
    simp only [held, List.filterMap_cons, PC.obj, List.filterMap_nil, List.cons_append, List.nil_append] at h1' h3' ⊢
    refine ⟨h1', ?_, h3'⟩
    intro m' x' rd' hm
    simp at hm
    exact hsee m' x' rd' hm
  | close m rd =>
    have hh : held (if rd = true then [PC.getting] else [] : List (PC X)) = [] := by cases rd <;> rfl
    have hmm : ∀ m' x' rd', .handling m' x' rd' ∈ (if rd = true then [PC.getting] else []) ++ rest →
        .handling m' x' rd' ∈ rest := by
      intro m' x' rd' hm
      cases rd <;> simpa using hm
    simp only [held, List.filterMap_cons, PC.obj, List.filterMap_nil, List.cons_append, List.nil_append] at h1' h3'
    rw [hh, List.nil_append]
    unfold G.close
    split
    · refine ⟨(List.nodup_cons.mp h1').2, fun m' x' rd' hm => hsee m' x' rd' (hmm _ _ _ hm), fun x hx => ?_⟩
      exact h3' x (List.mem_cons_of_mem _ hx)
    · refine ⟨(List.perm_middle.nodup_iff).mpr h1', fun m' x' rd' hm => ?_, fun x hx => ?_⟩
      · have hm := hmm _ _ _ hm
        have hne : m' ≠ m := by
          rintro rfl
          exact (List.nodup_cons.mp h1').1 (hmem m' x' rd' hm)
        simp only [if_neg hne]
        exact hsee m' x' rd' hm
      · exact h3' x (List.perm_middle.mem_iff.mp hx)

theorem ReachableIf.inv {s : State X} (h : ReachableIf NoUserClose s) : Inv s := by
  induction h with
  | start => exact ⟨by simp [Exclusive, held], by simp [SeesOwn], by simp [held]⟩
  | step s l s' _ ho hs ih =>
    cases hs with
    | thread g g' pre post pcs pc ha => exact ih.act ha
    | connect g ts =>
      obtain ⟨h1, h2, h3⟩ := ih
      exact ⟨h1, fun m x rd hm => h2 m x rd (by simpa using hm), h3⟩
    | userClose g ts m hm => exact absurd ho (by simp [NoUserClose])
    | collect g ts m =>
      obtain ⟨h1, h2, h3⟩ := ih
      refine ⟨?_, h2, fun x hx => h3 x ?_⟩
      · exact List.Nodup.sublist (List.Sublist.append_left List.erase_sublist _) h1
      · exact (List.Sublist.append_left List.erase_sublist _).subset hx

/-- C70: at any time the message a hook has been given holds what was received for it, and nobody else has the object. -/
def C70_full : Prop := ∀ s : State Nat, ReachableIf (fun _ => True) s → SeesOwn s ∧ Exclusive s

/-- C70 if hooks do not call `Close` on their messages. Missing: hooks that do, for which it is false. -/
theorem C70_partial {s : State X} (h : ReachableIf NoUserClose s) : SeesOwn s ∧ Exclusive s := ⟨h.inv.sees, h.inv.excl⟩

/-- C70: each object is held by at most one goroutine. Missing: hooks that call `Close`, for which it is false. -/
theorem C70_one_holder_partial {s : State X} (h : ReachableIf NoUserClose s) (pre mid post : List (PC X)) (a b : PC X)
    (hs : s.threads = pre ++ a :: (mid ++ b :: post)) (m : Nat) (ha : a.obj = some m) : b.obj ≠ some m := by
  intro hb
  have hn := h.inv.excl
  unfold Exclusive at hn
  rw [hs] at hn
  have := (List.nodup_append.mp hn).1
  simp only [held, List.filterMap_append, List.filterMap_cons, ha, hb] at this
  have := (List.nodup_append.mp this).2.1
  simp at this

/-- C70: the objects in the pool are empty: who takes one from there finds nothing of earlier messages in it. Missing: hooks
that call `Close`, for which it is false. -/
theorem C70_pool_empty_partial {s : State X} (h : ReachableIf NoUserClose s) : ∀ m ∈ s.g.pool, s.g.holds m = none := by
  induction h with
  | start => simp
  | step s l s' hr ho hs ih =>
    cases hs with
    | thread g g' pre post pcs pc ha =>
      simp only at ih ⊢
      have hx := hr.inv.excl
      have hob : ∀ m, pc.obj = some m → m ∉ g.pool := by
        intro m hm hp
        have := (List.nodup_append.mp hx).2.2 m (held_mem (by simp) hm) m hp
        exact this rfl
      cases ha with
      | getNew => exact ih
      | getPooled m hm => exact fun x hx => ih x (List.mem_of_mem_erase hx)
      | readErr m x =>
        intro m' hm'
        have : m' ≠ m := by rintro rfl; exact hob m' rfl hm'
        simp only [G.put, if_neg this]
        exact ih m' hm'
      | readInline m x =>
        intro m' hm'
        have : m' ≠ m := by rintro rfl; exact hob m' rfl hm'
        simp only [G.put, if_neg this]
        exact ih m' hm'
      | readSpawn m x =>
        intro m' hm'
        have : m' ≠ m := by rintro rfl; exact hob m' rfl hm'
        simp only [G.put, if_neg this]
        exact ih m' hm'
      | done m x rd => exact ih
      | close m rd =>
        unfold G.close
        split
        · exact ih
        · intro m' hm'
          simp only [List.mem_cons] at hm'
          by_cases e : m' = m
          · simp [e]
          · simp only [if_neg e]
            exact ih m' (hm'.resolve_left e)
    | connect g ts => exact ih
    | userClose g ts m hm => exact absurd ho (by simp [NoUserClose])
    | collect g ts m => exact fun x hx => ih x (List.mem_of_mem_erase hx)

/-- C70: what was received for a message is kept in its object only as long as some goroutine has the object: at most until
that goroutine has closed it. Missing: hooks that call `Close`, with which objects are shared. -/
theorem C70_nothing_left_partial {s : State X} (h : ReachableIf NoUserClose s) (m : Nat) (hm : s.g.holds m ≠ none) :
    ∃ pc ∈ s.threads, pc.obj = some m := by
  suffices hs : m ∈ held s.threads by
    obtain ⟨pc, h1, h2⟩ := List.mem_filterMap.mp hs
    exact ⟨pc, h1, h2⟩
  induction h with
  | start => exact absurd rfl hm
  | step s l s' hr ho hs ih =>
    cases hs with
    | thread g g' pre post pcs pc ha =>
      simp only [held_append, List.mem_append] at ih hm ⊢
      have hc : held (pc :: post) = held [pc] ++ held post := held_append [pc] post
      rw [hc, List.mem_append] at ih
      -- what the other goroutines have, they keep
      suffices hk : m ∈ held pcs ∨ (g.holds m ≠ none ∧ m ∉ held [pc]) by
        rcases hk with hk | ⟨hk, hn⟩
        · exact .inr (.inl hk)
        · rcases ih hk with h | h | h
          · exact .inl h
          · exact absurd h hn
          · exact .inr (.inr h)
      have hput : ∀ n x, (g.put n x).holds m ≠ none → m = n ∨ m ≠ n ∧ g.holds m ≠ none := by
        intro n x hx
        by_cases e : m = n
        · exact .inl e
        · simp only [G.put, if_neg e] at hx
          exact .inr ⟨e, hx⟩
      cases ha with
      | getNew => exact .inr ⟨hm, by simp [held, PC.obj]⟩
      | getPooled n hn => exact .inr ⟨hm, by simp [held, PC.obj]⟩
      | readErr n x => simpa [held, PC.obj, and_comm] using hput n x hm
      | readInline n x => simpa [held, PC.obj, and_comm] using hput n (some x) hm
      | readSpawn n x => simpa [held, PC.obj, and_comm] using hput n (some x) hm
      | done n x rd =>
        by_cases e : m = n
        · exact .inl (by simp [held, PC.obj, e])
        · exact .inr ⟨hm, by simp [held, PC.obj, e]⟩
      | close n rd =>
        refine .inr ?_
        unfold G.close at hm
        split at hm
        next hn => exact ⟨hm, by rintro h; simp [held, PC.obj] at h; exact hm (h ▸ hn)⟩
        next hn =>
          by_cases e : m = n
          · simp [e] at hm
          · simp only [if_neg e] at hm
            exact ⟨hm, by simp [held, PC.obj, e]⟩
    | connect g ts => simpa [held, PC.obj] using ih hm
    | userClose g ts m hm => exact absurd ho (by simp [NoUserClose])
    | collect g ts m => exact ih hm

/-- A step of a goroutine, by its place. -/
theorem step_at {s : State X} {g' : G X} {pcs : List (PC X)} {ok : Label → Prop} (ho : ok .thread) (h : ReachableIf ok s)
    (pre post : List (PC X)) (pc : PC X) (hs : s.threads = pre ++ pc :: post) (ha : Act s.g pc g' pcs) :
    ReachableIf ok ⟨g', pre ++ (pcs ++ post)⟩ := by
  obtain ⟨g, ts⟩ := s
  simp only at hs
  subst hs
  exact .step _ _ _ h ho (.thread g g' pre post pcs pc ha)

/-- Two connections. The hook of the first, given the message 7, closes it; the second reads 8 into the same object and
gives it to its hook: now the handler of the first has the message of the second. -/
theorem mixed : ∃ s : State Nat, ReachableIf (fun _ => True) s ∧ s.g.holds 0 = some 8 ∧
    s.threads = [.handling 0 7 true, .handling 0 8 true] := by
  have r0 : ReachableIf (fun _ => True) (⟨{}, [.getting, .getting]⟩ : State Nat) :=
    .step _ _ _ (.step _ _ _ .start trivial (.connect _ _)) trivial (.connect _ _)
  have r1 := step_at trivial r0 [] [.getting] _ rfl .getNew
  have r2 := step_at trivial r1 [] [.getting] _ rfl (.readInline 0 7)
  have r3 := ReachableIf.step _ _ _ r2 trivial (.userClose _ _ 0 (by simp))
  have r4 := step_at trivial r3 [.handling 0 7 true] [] _ rfl (.getPooled 0 (by simp [G.close, G.put]))
  have r5 := step_at trivial r4 [.handling 0 7 true] [] _ rfl (.readInline 0 8)
  exact ⟨_, r5, by simp [G.put], rfl⟩

/-- C70 does not hold: a hook that closes its message makes the server reply to it with the identifier of a request of
another client. -/
theorem C70_violated : ¬ C70_full := by
  intro hf
  obtain ⟨s, hr, hh, ht⟩ := mixed
  have := (hf s hr).1 0 7 true (by rw [ht]; simp)
  rw [hh] at this
  cases this

/-- What the other client sees: when the first handler is done it closes the message of the second client while the hook
of that client is running; reading it then panics ("read after close"). -/
theorem C70_other_violated : ∃ s : State Nat, ReachableIf (fun _ => True) s ∧
    s.threads = [.getting, .handling 0 8 true] ∧ s.g.holds 0 = none ∧ 0 ∈ s.g.pool := by
  obtain ⟨s, hr, hh, ht⟩ := mixed
  have r1 := step_at trivial hr [] [.handling 0 8 true] _ ht (.done 0 7 true)
  have r2 := step_at trivial r1 [] [.handling 0 8 true] _ rfl (.close 0 true)
  exact ⟨_, r2, rfl, by simp [G.close, hh], by simp [G.close, hh]⟩

/-- Two requests handled at once without `Close`, as in `C70_partial`. -/
example : ∃ s : State Nat, ReachableIf NoUserClose s ∧
    s.threads = [.handling 0 7 true, .handling 1 8 false, .getting] := by
  have r0 : ReachableIf NoUserClose (⟨{}, [.getting, .getting]⟩ : State Nat) :=
    .step _ .connect _ (.step _ .connect _ .start trivial (.connect _ _)) trivial (.connect _ _)
  have r1 := step_at trivial r0 [] [.getting] _ rfl .getNew
  have r2 := step_at trivial r1 [] [.getting] _ rfl (.readInline 0 7)
  have r3 := step_at trivial r2 [.handling 0 7 true] [] _ rfl .getNew
  have r4 := step_at trivial r3 [.handling 0 7 true] [] _ rfl (.readSpawn 1 8)
  exact ⟨_, r4, rfl⟩

/-- An object that is used twice: after the first message it is empty and in the pool, then it holds the second. -/
example : ∃ s t : State Nat, ReachableIf NoUserClose s ∧ s.g.pool = [0] ∧ s.g.holds 0 = none ∧ s.threads = [.getting] ∧
    ReachableIf NoUserClose t ∧ t.g.holds 0 = some 8 ∧ t.threads = [.handling 0 8 true] := by
  have r0 : ReachableIf NoUserClose (⟨{}, [.getting]⟩ : State Nat) := .step _ .connect _ .start trivial (.connect _ _)
  have r1 := step_at trivial r0 [] [] _ rfl .getNew
  have r2 := step_at trivial r1 [] [] _ rfl (.readInline 0 7)
  have r3 := step_at trivial r2 [] [] _ rfl (.done 0 7 true)
  have r4 := step_at trivial r3 [] [] _ rfl (.close 0 true)
  have r5 := step_at trivial r4 [] [] _ rfl (.getPooled 0 (by simp [G.close, G.put]))
  have r6 := step_at trivial r5 [] [] _ rfl (.readInline 0 8)
  exact ⟨_, _, r4, by simp [G.close, G.put], by simp [G.close, G.put], rfl, r6, by simp [G.put], rfl⟩

end Webwire.Buffers
