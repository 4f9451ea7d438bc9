import Verif.Proofs.SessionStore

/-! # What was reported as saved is in the file (C45) -/

set_option autoImplicit false

namespace Webwire.Store

variable {I : Type}

/-- What a lookup writes is what it read, with the new time. -/
def After.keeps (f : SessionFile I) : After I → Prop
  | .created => True
  | .looked old now => f = { old with lastLookup := now }

/-- What the only goroutine has done. -/
def Doing (env : Env I) (g : G I) : PC I → Prop
  | .saving _ f a => a.keeps f
  | .writing key f i data off a => a.keeps f ∧ env.marshal f = some data ∧ g.names (env.path key) = some i ∧
      g.inodes i = data.take off
  | _ => True

structure Seq (env : Env I) (s : State I) : Prop where
  one : s.threads.length ≤ 1
  doing : ∀ pc ∈ s.threads, Doing env s.g pc
  done : s.threads = [] → ∀ l e, s.g.log = l ++ [e] → ∀ key f, e.saves key f → Holds env s.g key f

theorem Seq.acts {env : Env I} {g g' : G I} {pc : PC I} {pcs : List (PC I)} (hd : Doing env g pc)
    (ha : Acts env g pc g' pcs) : Seq env ⟨g', pcs⟩ := by
  have last : ∀ {g : G I} {e : Ev I}, (∀ key f, e.saves key f → Holds env (g.ev e) key f) → Seq env ⟨g.ev e, []⟩ := by
    intro g e h
    refine ⟨by simp, by simp, fun _ l e' he key f hs => ?_⟩
    have h2 := (List.append_inj' (show g.log ++ [e] = l ++ [e'] from he) rfl).2
    simp only [List.cons.injEq, and_true] at h2
    subst h2
    exact h key f hs
  have mid : ∀ {g : G I} {pc : PC I}, Doing env g pc → Seq env ⟨g, [pc]⟩ := by
    intro g pc h
    exact ⟨by simp, by simpa using h, by simp⟩
  cases ha
  case saveFailed key f a _ =>
    refine last fun key f hs => ?_
    cases a <;> simp [finish, Ev.saves] at hs
  case saveOld key f a data i hm _ hn => exact mid ⟨hd, hm, hn, by simp⟩
  case saveNew key f a data hm _ hn => exact mid ⟨hd, hm, by simp, by simp⟩
  case saved key f i data off a hl =>
    obtain ⟨h1, h2, h3, h4⟩ := hd
    refine last fun key' f' hs => ?_
    have hh : Holds env g key f := ⟨data, i, h2, h3, by rw [h4, List.take_of_length_le hl]⟩
    cases a with
    | created =>
      simp only [finish, Ev.saves] at hs
      obtain ⟨rfl, rfl⟩ := hs
      exact hh
    | looked old now =>
      simp only [finish, Ev.saves] at hs
      obtain ⟨rfl, rfl⟩ := hs
      simp only [After.keeps] at h1
      subst h1
      exact hh
  case write key f i data off n a hl =>
    obtain ⟨h1, h2, h3, h4⟩ := hd
    exact mid ⟨h1, h2, h3, by simp only [if_true]; rw [h4]; exact overwrite_prefix data off n hl⟩
  case statSome => exact mid trivial
  case read => exact mid rfl
  case statBad key now res _ hr =>
    refine last fun key f hs => ?_
    rcases hr with rfl | rfl <;> simp [Ev.saves] at hs
  all_goals exact last fun key f hs => by simp [Ev.saves] at hs

theorem seq {env : Env I} {s : State I} (h : ReachableIf env Sequential s) : Seq env s := by
  induction h with
  | start => exact ⟨by simp, by simp, fun _ l e he => by simp at he⟩
  | step s l s' _ hok hst ih =>
    cases hst with
    | thread g g' pre post pcs pc n hact =>
      obtain ⟨h1, h2, _⟩ := ih
      have : pre = [] ∧ post = [] := by
        simp only [List.length_append, List.length_cons] at h1
        exact ⟨List.length_eq_zero_iff.mp (by omega), List.length_eq_zero_iff.mp (by omega)⟩
      obtain ⟨rfl, rfl⟩ := this
      simpa using Seq.acts (h2 pc (by simp)) (acts_of_act hact)
    | create g ts key f =>
      have : ts = [] := hok
      subst this
      exact ⟨by simp, by simp [Doing, After.keeps], by simp⟩
    | look g ts key now =>
      have : ts = [] := hok
      subst this
      exact ⟨by simp, by simp [Doing], by simp⟩
    | close g ts key =>
      have : ts = [] := hok
      subst this
      exact ⟨by simp, by simp [Doing], by simp⟩
    | crash g ts => exact absurd hok id

end Webwire.Store
