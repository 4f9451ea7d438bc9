import Verif.Spec.SessionStore
import Mathlib.Tactic.Push

/-!
# Lemmas on the file session manager
-/

set_option autoImplicit false

namespace Webwire.Store

variable {I : Type}

/-! ## Paths -/

theorem split_ne_nil (a : Bytes) : split a ≠ [] := by
  cases a with
  | nil => simp [split]
  | cons c cs =>
    simp only [split]
    split
    · simp
    · split <;> simp

theorem split_slash (a b : Bytes) : split (a ++ 47 :: b) = split a ++ split b := by
  induction a with
  | nil => simp [split]
  | cons c cs ih =>
    simp only [List.cons_append, split, ih]
    split
    · rfl
    · cases hs : split cs with
      | nil => exact absurd hs (split_ne_nil cs)
      | cons h t => rfl

theorem split_none {b : Bytes} (h : 47 ∉ b) : split b = [b] := by
  induction b with
  | nil => rfl
  | cons c cs ih =>
    have hc : c ≠ 47 := fun hc => h (by simp [hc])
    simp only [split, if_neg hc, ih (fun hm => h (by simp [hm]))]

theorem suffix_noSlash : (47 : UInt8) ∉ suffix := by decide

theorem addComp_file (rooted : Bool) (acc : List Bytes) (key : Bytes) :
    addComp rooted acc (key ++ suffix) = acc ++ [key ++ suffix] := by
  have hl : (key ++ suffix).length ≥ 8 := by simp [suffix]
  have h1 : ¬ (key ++ suffix = [] ∨ key ++ suffix = [46]) := by
    rintro (h | h) <;> rw [h] at hl <;> simp at hl
  have h2 : ¬ (key ++ suffix = [46, 46]) := by intro h; rw [h] at hl; simp at hl
  rw [addComp, if_neg h1, if_neg h2]

theorem clean_nil : clean [] = ⟨false, []⟩ := by decide

theorem filePath_plain (dir key : Bytes) (h : 47 ∉ key) :
    filePath dir key = ⟨(clean dir).rooted, (clean dir).comps ++ [key ++ suffix]⟩ := by
  have hk : 47 ∉ key ++ suffix := by
    simp only [List.mem_append, not_or]; exact ⟨h, suffix_noSlash⟩
  by_cases hd : dir = []
  · subst hd
    have hr : ((key ++ suffix).head? == some 47) = false := by
      cases hks : key ++ suffix with
      | nil => simp
      | cons c cs =>
        have : c ≠ 47 := fun hc => hk (by rw [hks, hc]; simp)
        simpa using this
    simp only [filePath, if_true, clean, hr, split_none hk, List.foldl_cons, List.foldl_nil, addComp_file]
    rfl
  · have hr : (dir ++ 47 :: (key ++ suffix)).head? = dir.head? := by cases dir <;> simp_all
    simp only [filePath, if_neg hd, clean, hr, split_slash, split_none hk, List.foldl_append, List.foldl_cons,
      List.foldl_nil, addComp_file]

theorem filePath_inj {dir k k' : Bytes} (h : 47 ∉ k) (h' : 47 ∉ k') (he : filePath dir k = filePath dir k') :
    k = k' := by
  rw [filePath_plain _ _ h, filePath_plain _ _ h'] at he
  simp only [Path.mk.injEq, true_and] at he
  simpa using he

/-! ## Where paths lead -/

theorem followAll_split (p : Bytes) : ∀ (d : List Bytes) (cur : Bytes), ∃ h t, split p = h :: t ∧
    followAll d cur p = ((cur ++ h) :: t).foldl follow d := by
  induction p with
  | nil => intro d cur; exact ⟨[], [], rfl, by simp [followAll]⟩
  | cons c cs ih =>
    intro d cur
    by_cases hc : c = 47
    · obtain ⟨h, t, hs, he⟩ := ih (follow d cur) []
      refine ⟨[], h :: t, by simp [split, hc, hs], ?_⟩
      simp [followAll, hc, he]
    · obtain ⟨h, t, hs, he⟩ := ih d (cur ++ [c])
      refine ⟨c :: h, t, by simp [split, hc, hs], ?_⟩
      simp [followAll, hc, he]

theorem leads_split (cwd : List Bytes) (p : Bytes) :
    leads cwd p = (split p).foldl follow (if p.head? = some 47 then [] else cwd) := by
  obtain ⟨h, t, hs, he⟩ := followAll_split p (if p.head? = some 47 then [] else cwd) []
  rw [leads, he, hs, List.nil_append]

theorem foldl_addComp (rooted : Bool) (base : List Bytes) (hb : rooted = true → base = []) (cs : List Bytes) :
    ∀ acc : List Bytes, (∀ c ∈ acc, c ≠ [] ∧ c ≠ [46]) →
      (cs.foldl (addComp rooted) acc).foldl follow base = cs.foldl follow (acc.foldl follow base) := by
  induction cs with
  | nil => intro acc _; rfl
  | cons c cs ih =>
    intro acc ha
    simp only [List.foldl_cons]
    have main : (addComp rooted acc c).foldl follow base = follow (acc.foldl follow base) c ∧
        ∀ x ∈ addComp rooted acc c, x ≠ [] ∧ x ≠ [46] := by
      unfold addComp
      split
      · rename_i h
        exact ⟨by rw [follow, if_pos h], ha⟩
      · rename_i h
        have hc : c ≠ [] ∧ c ≠ [46] := not_or.mp h
        have snoc : ∀ x ∈ acc ++ [c], x ≠ [] ∧ x ≠ [46] := by
          intro x hx
          rcases List.mem_append.mp hx with hx | hx
          · exact ha x hx
          · simp only [List.mem_singleton] at hx; subst hx; exact hc
        split
        · rename_i h2
          subst h2
          split
          · rename_i hl
            have hn : acc = [] := List.getLast?_eq_none_iff.mp hl
            subst hn
            split
            · rename_i hr
              rw [hb hr]
              exact ⟨by simp [follow], ha⟩
            · exact ⟨by simp, by simp⟩
          · rename_i l hl
            obtain ⟨ys, rfl⟩ := List.getLast?_eq_some_iff.mp hl
            split
            · exact ⟨by simp [List.foldl_append], snoc⟩
            · rename_i h3
              have hl' := ha l (by simp)
              refine ⟨?_, fun x hx => ha x (List.dropLast_subset _ hx)⟩
              rw [List.dropLast_concat, List.foldl_append]
              simp [follow, hl', h3]
        · exact ⟨by simp [List.foldl_append], snoc⟩
    rw [ih _ main.2, main.1]

/-- Cleaning a path does not change where it leads. -/
theorem clean_leads (cwd : List Bytes) (p : Bytes) : (clean p).leads cwd = leads cwd p := by
  rw [leads_split, Path.leads, clean]
  have e : (if (p.head? == some 47) = true then ([] : List Bytes) else cwd) =
      if p.head? = some 47 then [] else cwd := by simp
  simp only
  rw [foldl_addComp _ _ (by intro h; rw [if_pos h]) _ [] (by simp), e]
  rfl

/-! ## Steps -/

/-- All steps of goroutines, case by case. -/
inductive Acts (env : Env I) (g : G I) : PC I → G I → List (PC I) → Prop
  | saveFailed (key : Bytes) (f : SessionFile I) (a : After I) :
      (env.marshal f = none ∨ env.usable (env.path key) = false) →
      Acts env g (.saving key f a) (g.ev (finish key f false a)) []
  | saveOld (key : Bytes) (f : SessionFile I) (a : After I) (data : Bytes) (i : Nat) : env.marshal f = some data →
      env.usable (env.path key) = true → g.names (env.path key) = some i →
      Acts env g (.saving key f a) { g with inodes := fun j => if j = i then [] else g.inodes j }
        [.writing key f i data 0 a]
  | saveNew (key : Bytes) (f : SessionFile I) (a : After I) (data : Bytes) : env.marshal f = some data →
      env.usable (env.path key) = true → g.names (env.path key) = none →
      Acts env g (.saving key f a) { g with
          names := fun q => if q = env.path key then some g.next else g.names q,
          inodes := fun j => if j = g.next then [] else g.inodes j,
          next := g.next + 1 } [.writing key f g.next data 0 a]
  | saved (key : Bytes) (f : SessionFile I) (i : Nat) (data : Bytes) (off : Nat) (a : After I) : data.length ≤ off →
      Acts env g (.writing key f i data off a) (g.ev (finish key f true a)) []
  | write (key : Bytes) (f : SessionFile I) (i : Nat) (data : Bytes) (off n : Nat) (a : After I) :
      ¬ data.length ≤ off →
      Acts env g (.writing key f i data off a) { g with
        inodes := fun j => if j = i then overwrite (g.inodes i) off ((data.drop off).take (n + 1)) else g.inodes j }
        [.writing key f i data (off + (n + 1)) a]
  | statNone (key : Bytes) (now : Nat) : env.usable (env.path key) = true → g.names (env.path key) = none →
      Acts env g (.statting key now) (g.ev (.lookEnd key now .notFound)) []
  | statSome (key : Bytes) (now i : Nat) : env.usable (env.path key) = true → g.names (env.path key) = some i →
      Acts env g (.statting key now) g [.reading key now]
  | statBad (key : Bytes) (now : Nat) (res : Look I) : env.usable (env.path key) = false →
      (res = .notFound ∨ res = .failed) → Acts env g (.statting key now) (g.ev (.lookEnd key now res)) []
  | readFailed (key : Bytes) (now : Nat) : stored env g key = none →
      Acts env g (.reading key now) (g.ev (.lookEnd key now .failed)) []
  | read (key : Bytes) (now : Nat) (f : SessionFile I) : stored env g key = some f →
      Acts env g (.reading key now) g [.saving key { f with lastLookup := now } (.looked f now)]
  | removeNone (key : Bytes) : g.names (env.path key) = none ∨ env.usable (env.path key) = false →
      Acts env g (.removing key) (g.ev (.closeEnd key false)) []
  | remove (key : Bytes) (i : Nat) : env.usable (env.path key) = true → g.names (env.path key) = some i →
      Acts env g (.removing key) (({ g with names := fun q => if q = env.path key then none else g.names q } : G I).ev
          (.closeEnd key true)) []

theorem acts_of_act {env : Env I} {g g' : G I} {n : Nat} {pc : PC I} {pcs : List (PC I)}
    (h : act env g n pc = some (g', pcs)) : Acts env g pc g' pcs := by
  cases pc with
  | saving key f a =>
    simp only [act] at h
    split at h
    · rename_i hm
      simp only [Option.some.injEq, Prod.mk.injEq] at h; obtain ⟨rfl, rfl⟩ := h
      exact .saveFailed key f a (.inl hm)
    · rename_i data hm
      split at h
      · rename_i hu
        cases hn : g.names (env.path key) with
        | none =>
          simp only [G.openTrunc, hn, Option.some.injEq, Prod.mk.injEq] at h; obtain ⟨rfl, rfl⟩ := h
          exact .saveNew key f a data hm hu hn
        | some i =>
          simp only [G.openTrunc, hn, Option.some.injEq, Prod.mk.injEq] at h; obtain ⟨rfl, rfl⟩ := h
          exact .saveOld key f a data i hm hu hn
      · rename_i hu
        simp only [Option.some.injEq, Prod.mk.injEq] at h; obtain ⟨rfl, rfl⟩ := h
        exact .saveFailed key f a (.inr (by simpa using hu))
  | writing key f i data off a =>
    simp only [act] at h
    split at h <;> rename_i hl <;>
      (simp only [Option.some.injEq, Prod.mk.injEq] at h; obtain ⟨rfl, rfl⟩ := h)
    · exact .saved key f i data off a hl
    · exact .write key f i data off n a hl
  | statting key now =>
    simp only [act] at h
    split at h
    · rename_i hu
      split at h <;> rename_i hn <;>
        (simp only [Option.some.injEq, Prod.mk.injEq] at h; obtain ⟨rfl, rfl⟩ := h)
      · exact .statNone key now hu hn
      · exact .statSome key now _ hu hn
    · rename_i hu
      have hu : env.usable (env.path key) = false := by simpa using hu
      split at h <;> (simp only [Option.some.injEq, Prod.mk.injEq] at h; obtain ⟨rfl, rfl⟩ := h)
      · exact .statBad key now _ hu (.inl rfl)
      · exact .statBad key now _ hu (.inr rfl)
  | reading key now =>
    simp only [act] at h
    split at h
    · rename_i hn
      simp only [Option.some.injEq, Prod.mk.injEq] at h; obtain ⟨rfl, rfl⟩ := h
      exact .readFailed key now (by simp [stored, hn])
    · rename_i i hn
      split at h <;> rename_i hu <;>
        (simp only [Option.some.injEq, Prod.mk.injEq] at h; obtain ⟨rfl, rfl⟩ := h)
      · exact .readFailed key now (by simp [stored, hn, hu])
      · exact .read key now _ (by simp [stored, hn, hu])
  | removing key =>
    simp only [act] at h
    split at h
    · rename_i hu
      split at h <;> rename_i hn <;>
        (simp only [Option.some.injEq, Prod.mk.injEq] at h; obtain ⟨rfl, rfl⟩ := h)
      · exact .removeNone key (.inl hn)
      · exact .remove key _ hu hn
    · rename_i hu
      simp only [Option.some.injEq, Prod.mk.injEq] at h; obtain ⟨rfl, rfl⟩ := h
      exact .removeNone key (.inr (by simpa using hu))

theorem overwrite_prefix (data : Bytes) (off n : Nat) (h : ¬ data.length ≤ off) :
    overwrite (data.take off) off ((data.drop off).take (n + 1)) = data.take (off + (n + 1)) := by
  have hl : (data.take off).length = off := by rw [List.length_take]; omega
  have hd : ∀ m, (data.take off).drop (off + m) = [] := fun m => List.drop_eq_nil_of_le (by omega)
  simp only [overwrite, hl, Nat.sub_self, List.replicate_zero, List.append_nil, hd]
  rw [List.take_of_length_le (Nat.le_of_eq hl)]
  exact List.take_add.symm

/-! ## Operations one at a time -/

/-- Why the file of `k` is saved. -/
def AfterInv (L : Nat → Nat → Prop) (k : Bytes) (g : G I) (f : SessionFile I) : After I → Prop
  | .created => True
  | .looked old now => f = { old with lastLookup := now } ∧ ∃ m, sessions g.log k = some m ∧
      old.creation = m.creation ∧ old.info = m.info ∧ L m.lastLookup old.lastLookup

/-- What a goroutine knows about the session under key `k`. -/
def PcInv (env : Env I) (L : Nat → Nat → Prop) (k : Bytes) (g : G I) : PC I → Prop
  | .saving key f a => Good env key ∧ (key = k → Storable env f ∧ AfterInv L k g f a)
  | .writing key f i data off a => Good env key ∧ g.names (env.path key) = some i ∧
    (key = k → Storable env f ∧ AfterInv L k g f a ∧ g.inodes i = data.take off ∧ env.unmarshal data = some f)
  | .statting key _ => Good env key
  | .reading key _ => Good env key ∧ ∃ i, g.names (env.path key) = some i
  | .removing key => Good env key

/-- The file of `k` is as the log says. -/
def FileInv (env : Env I) (L : Nat → Nat → Prop) (k : Bytes) (g : G I) : Prop :=
  match sessions g.log k with
  | none => g.names (env.path k) = none
  | some m => ∃ f, stored env g k = some f ∧ f.creation = m.creation ∧ f.info = m.info ∧
      L m.lastLookup f.lastLookup ∧ Storable env f

structure KInv (env : Env I) (L : Nat → Nat → Prop) (k : Bytes) (s : State I) : Prop where
  inj : ∀ p q i, s.g.names p = some i → s.g.names q = some i → p = q
  fresh : ∀ p i, s.g.names p = some i → i < s.g.next
  one : s.threads.length ≤ 1
  pc : ∀ pc ∈ s.threads, PcInv env L k s.g pc
  file : (∀ pc ∈ s.threads, pc.writes k = false) → FileInv env L k s.g
  fits : Conforms L k s.g.log

theorem sessions_append (log : List (Ev I)) (e : Ev I) : sessions (log ++ [e]) = stepSpec (sessions log) e := by
  simp [sessions, List.foldl_append]

theorem conforms_append {L : Nat → Nat → Prop} {k : Bytes} {log : List (Ev I)} {e : Ev I} (h : Conforms L k log)
    (he : Fits L k (sessions log) e) : Conforms L k (log ++ [e]) := by
  intro l1 x l2 hs
  rcases List.eq_nil_or_concat l2 with rfl | ⟨l3, y, rfl⟩
  · have := List.append_inj' hs rfl
    simp at this
    obtain ⟨rfl, rfl⟩ := this
    exact he
  · rw [List.concat_eq_append] at hs
    have h' : log ++ [e] = (l1 ++ x :: l3) ++ [y] := by simpa using hs
    have := List.append_inj' h' rfl
    exact h l1 x l3 this.1

/-- The key an event is about. -/
def Ev.key : Ev I → Bytes
  | .createStart k | .createEnd k _ _ | .lookEnd k _ _ | .closeEnd k _ => k

theorem stepSpec_other (m : Bytes → Option (SessionFile I)) (e : Ev I) (k : Bytes) (h : e.key ≠ k) :
    stepSpec m e k = m k := by
  have h' : k ≠ e.key := fun x => h x.symm
  cases e with
  | createStart key => rfl
  | createEnd key f ok => cases ok <;> simp_all [stepSpec, Ev.key]
  | lookEnd key now res => cases res <;> simp_all [stepSpec, Ev.key]
  | closeEnd key ok => cases ok <;> simp_all [stepSpec, Ev.key]

theorem fits_other (L : Nat → Nat → Prop) (m : Bytes → Option (SessionFile I)) (e : Ev I) (k : Bytes)
    (h : e.key ≠ k) : Fits L k m e := by
  cases e <;> simp_all [Fits, Ev.key]

theorem finish_key (key : Bytes) (f : SessionFile I) (ok : Bool) (a : After I) : (finish key f ok a).key = key := by
  cases a <;> rfl

theorem storable_data {env : Env I} {f : SessionFile I} (h : Storable env f) {data : Bytes}
    (hm : env.marshal f = some data) : env.unmarshal data = some f := by
  obtain ⟨b, hb, hub⟩ := h f.lastLookup
  have : b = data := by
    have hb' : env.marshal f = some b := hb
    rw [hm] at hb'; exact (Option.some.inj hb').symm
  subst this
  exact hub

theorem KInv.acts {env : Env I} {L : Nat → Nat → Prop} (hL : ∀ a, L a a) {k : Bytes} (hk : 47 ∉ k) {g g' : G I}
    {pc : PC I} {pcs : List (PC I)} (hi : KInv env L k ⟨g, [pc]⟩) (ha : Acts env g pc g' pcs) :
    KInv env L k ⟨g', pcs⟩ := by
  obtain ⟨hinj, hfresh, -, hpc, hfile, hfits⟩ := hi
  replace hpc := hpc pc (by simp)
  simp only [List.mem_singleton, forall_eq] at hinj hfresh hpc hfile hfits
  -- an event about another key
  have other : ∀ e : Ev I, e.key ≠ k → pc.writes k = false → KInv env L k ⟨g.ev e, []⟩ := by
    intro e he hw
    refine ⟨hinj, hfresh, by simp, by simp, fun _ => ?_, conforms_append hfits (fits_other L _ e k he)⟩
    have := hfile hw
    simp only [FileInv, G.ev, sessions_append, stepSpec_other _ e k he] at this ⊢
    exact this
  cases ha with
  | saveFailed key f a hf =>
    obtain ⟨hg, hs⟩ := hpc
    by_cases hkk : key = k
    · obtain ⟨b, hb, -⟩ := (hs hkk).1 f.lastLookup
      have hb' : env.marshal f = some b := hb
      rcases hf with hf | hf
      · rw [hf] at hb'; cases hb'
      · rw [hg.2] at hf; cases hf
    · exact other _ (by rw [finish_key]; exact hkk) rfl
  | saveOld key f a data i hm hu hn =>
    obtain ⟨hg, hs⟩ := hpc
    refine ⟨hinj, hfresh, by simp, ?_, ?_, hfits⟩
    · intro pc hpc
      simp only [List.mem_singleton] at hpc
      subst hpc
      exact ⟨hg, hn, fun hkk => ⟨(hs hkk).1, (hs hkk).2, by simp, storable_data (hs hkk).1 hm⟩⟩
    · intro hw
      have hkk : key ≠ k := by simpa [PC.writes] using hw
      have hpk : env.path k ≠ env.path key := fun h => hkk (filePath_inj hg.1 hk h.symm)
      have := hfile rfl
      simp only [FileInv, stored] at this ⊢
      cases hnk : g.names (env.path k) with
      | none => simpa [hnk] using this
      | some j =>
        have hji : j ≠ i := fun h => hpk (hinj _ _ j hnk (h ▸ hn))
        simpa [hnk, hji] using this
  | saveNew key f a data hm hu hn =>
    obtain ⟨hg, hs⟩ := hpc
    refine ⟨?_, ?_, by simp, ?_, ?_, hfits⟩
    · intro p q i hp hq
      simp only at hp hq
      split at hp <;> split at hq
      · rename_i h1 h2; rw [h1, h2]
      · cases hp; have := hfresh _ _ hq; omega
      · cases hq; have := hfresh _ _ hp; omega
      · exact hinj p q i hp hq
    · intro p i hp
      simp only at hp ⊢
      split at hp
      · cases hp; omega
      · have := hfresh p i hp; omega
    · intro pc hpc
      simp only [List.mem_singleton] at hpc
      subst hpc
      exact ⟨hg, by simp, fun hkk => ⟨(hs hkk).1, (hs hkk).2, by simp, storable_data (hs hkk).1 hm⟩⟩
    · intro hw
      have hkk : key ≠ k := by simpa [PC.writes] using hw
      have hpk : env.path k ≠ env.path key := fun h => hkk (filePath_inj hg.1 hk h.symm)
      have := hfile rfl
      simp only [FileInv, stored, if_neg hpk] at this ⊢
      cases hnk : g.names (env.path k) with
      | none => simpa [hnk] using this
      | some j =>
        have hji : j ≠ g.next := by have := hfresh _ _ hnk; omega
        simpa [hnk, hji] using this
  | saved key f i data off a hl =>
    obtain ⟨hg, hn, hs⟩ := hpc
    by_cases hkk : key = k
    · obtain ⟨hs', ha, hino, hu⟩ := hs hkk
      subst hkk
      rw [List.take_of_length_le hl] at hino
      have hst : stored env g key = some f := by simp only [stored, hn, hino, hu]
      cases a with
      | created =>
        refine ⟨hinj, hfresh, by simp, by simp, fun _ => ?_,
          conforms_append hfits (by simp [finish, Fits])⟩
        simp only [FileInv, G.ev, finish, sessions_append, stepSpec, if_true]
        exact ⟨f, hst, rfl, rfl, hL _, hs'⟩
      | looked old now =>
        obtain ⟨rfl, m, hm, hc, hinf, hLm⟩ := ha
        refine ⟨hinj, hfresh, by simp, by simp, fun _ => ?_, conforms_append hfits ?_⟩
        · simp only [FileInv, G.ev, finish, sessions_append, stepSpec, if_true]
          exact ⟨_, hst, rfl, rfl, hL _, hs'⟩
        · simp only [finish, Fits, hm, if_true]
          intro _
          exact ⟨old, rfl, hc, hinf, hLm⟩
    · exact other _ (by rw [finish_key]; exact hkk) (by simpa [PC.writes] using hkk)
  | write key f i data off n a hl =>
    obtain ⟨hg, hn, hs⟩ := hpc
    refine ⟨hinj, hfresh, by simp, ?_, ?_, hfits⟩
    · intro pc hpc
      simp only [List.mem_singleton] at hpc
      subst hpc
      refine ⟨hg, hn, fun hkk => ?_⟩
      obtain ⟨hs, ha, hino, hu⟩ := hs hkk
      refine ⟨hs, ha, ?_, hu⟩
      simp only [if_true, hino]; exact overwrite_prefix data off n hl
    · intro hw
      have hkk : key ≠ k := by simpa [PC.writes] using hw
      have hpk : env.path k ≠ env.path key := fun h => hkk (filePath_inj hg.1 hk h.symm)
      have := hfile (by simpa [PC.writes] using hkk)
      simp only [FileInv, stored] at this ⊢
      cases hnk : g.names (env.path k) with
      | none => simpa [hnk] using this
      | some j =>
        have hji : j ≠ i := fun h => hpk (hinj _ _ j hnk (h ▸ hn))
        simpa [hnk, hji] using this
  | statNone key now hu hn =>
    by_cases hkk : key = k
    · subst hkk
      have hf := hfile rfl
      have hm : sessions g.log key = none := by
        cases hm : sessions g.log key with
        | none => rfl
        | some m =>
          simp only [FileInv, hm, stored, hn] at hf
          obtain ⟨f, hf, _⟩ := hf
          cases hf
      refine ⟨hinj, hfresh, by simp, by simp, fun _ => ?_, conforms_append hfits (by simp [Fits, hm])⟩
      simp only [FileInv, G.ev, sessions_append, stepSpec, hm]
      exact hn
    · exact other _ hkk rfl
  | statSome key now i hu hn =>
    refine ⟨hinj, hfresh, by simp, ?_, fun _ => hfile rfl, hfits⟩
    intro pc hpc'
    simp only [List.mem_singleton] at hpc'
    subst hpc'
    exact ⟨hpc, i, hn⟩
  | statBad key now res hu hr =>
    have hg : Good env key := hpc
    rw [hg.2] at hu; cases hu
  | readFailed key now hst =>
    obtain ⟨hg, i, hn⟩ := hpc
    by_cases hkk : key = k
    · subst hkk
      have hf := hfile rfl
      exfalso
      cases hm : sessions g.log key with
      | none => simp only [FileInv, hm] at hf; rw [hf] at hn; cases hn
      | some m => simp only [FileInv, hm, hst] at hf; obtain ⟨f, hf, _⟩ := hf; cases hf
    · exact other _ hkk rfl
  | read key now f hst =>
    obtain ⟨hg, i, hn⟩ := hpc
    refine ⟨hinj, hfresh, by simp, ?_, fun _ => hfile rfl, hfits⟩
    intro pc hpc'
    simp only [List.mem_singleton] at hpc'
    subst hpc'
    refine ⟨hg, fun hkk => ?_⟩
    subst hkk
    have hf := hfile rfl
    cases hm : sessions g.log key with
    | none => simp only [FileInv, hm] at hf; rw [hf] at hn; cases hn
    | some m =>
      simp only [FileInv, hm, hst] at hf
      obtain ⟨f', hf', h1, h2, h3, h4⟩ := hf
      cases hf'
      exact ⟨fun l => h4 l, rfl, m, hm, h1, h2, h3⟩
  | removeNone key hn =>
    have hg : Good env key := hpc
    have hn : g.names (env.path key) = none := by
      rcases hn with hn | hn
      · exact hn
      · rw [hg.2] at hn; cases hn
    by_cases hkk : key = k
    · subst hkk
      have hf := hfile rfl
      have hm : sessions g.log key = none := by
        cases hm : sessions g.log key with
        | none => rfl
        | some m =>
          simp only [FileInv, hm, stored, hn] at hf
          obtain ⟨f, hf, _⟩ := hf
          cases hf
      refine ⟨hinj, hfresh, by simp, by simp, fun _ => ?_, conforms_append hfits (by simp [Fits, hm])⟩
      simp only [FileInv, G.ev, sessions_append, stepSpec, hm]
      exact hn
    · exact other _ hkk rfl
  | remove key i hu hn =>
    have hg : Good env key := hpc
    have hinj' : ∀ p q i, (if p = env.path key then none else g.names p) = some i →
        (if q = env.path key then none else g.names q) = some i → p = q := by
      intro p q i hp hq
      split at hp <;> split at hq <;> simp_all
      exact hinj p q i hp hq
    have hfresh' : ∀ p i, (if p = env.path key then none else g.names p) = some i → i < g.next := by
      intro p i hp
      split at hp
      · cases hp
      · exact hfresh p i hp
    have hf := hfile rfl
    by_cases hkk : key = k
    · subst hkk
      refine ⟨hinj', hfresh', by simp, by simp, fun _ => ?_, conforms_append hfits ?_⟩
      · simp only [FileInv, G.ev, sessions_append, stepSpec, if_true]
      · simp only [Fits]
        intro _
        cases hm : sessions g.log key with
        | none => simp only [FileInv, hm] at hf; rw [hf] at hn; cases hn
        | some m => rfl
    · have hpk : env.path k ≠ env.path key := fun h => hkk (filePath_inj hg.1 hk h.symm)
      refine ⟨hinj', hfresh', by simp, by simp, fun _ => ?_,
        conforms_append hfits (fits_other L _ _ k hkk)⟩
      simp only [FileInv, G.ev, sessions_append, stepSpec_other _ (.closeEnd key true) k hkk, stored,
        if_neg hpk] at hf ⊢
      exact hf

theorem KInv.step {env : Env I} {L : Nat → Nat → Prop} (hL : ∀ a, L a a) {k : Bytes} (hk : 47 ∉ k)
    {s s' : State I} {l : Label I} (hi : KInv env L k s) (ho : OneAtATime env L k s l) (h : Step env s l s') :
    KInv env L k s' := by
  cases h with
  | thread g g' pre post pcs pc n hact =>
    have hone := hi.one
    simp only [List.length_append, List.length_cons] at hone
    have hpre : pre = [] := List.length_eq_zero_iff.mp (by omega)
    have hpost : post = [] := List.length_eq_zero_iff.mp (by omega)
    subst hpre; subst hpost
    simpa using hi.acts hL hk (acts_of_act hact)
  | create g ts key f =>
    obtain ⟨h0, hg, hs⟩ := ho
    simp only at h0
    subst h0
    obtain ⟨hinj, hfresh, -, hpc, hfile, hfits⟩ := hi
    refine ⟨hinj, hfresh, by simp, ?_, fun _ => ?_, conforms_append hfits (by simp [Fits])⟩
    · intro pc hpc
      simp only [List.mem_singleton] at hpc
      subst hpc
      exact ⟨hg, fun _ => ⟨hs, trivial⟩⟩
    · have := hfile (by simp)
      simp only [FileInv, G.ev, sessions_append, stepSpec] at this ⊢
      exact this
  | look g ts key now =>
    obtain ⟨h0, hg⟩ := ho
    simp only at h0
    subst h0
    obtain ⟨hinj, hfresh, -, hpc, hfile, hfits⟩ := hi
    refine ⟨hinj, hfresh, by simp, ?_, fun _ => hfile (by simp), hfits⟩
    intro pc hpc
    simp only [List.mem_singleton] at hpc
    subst hpc
    exact hg
  | close g ts key =>
    obtain ⟨h0, hg⟩ := ho
    simp only at h0
    subst h0
    obtain ⟨hinj, hfresh, -, hpc, hfile, hfits⟩ := hi
    refine ⟨hinj, hfresh, by simp, ?_, fun _ => hfile (by simp), hfits⟩
    intro pc hpc
    simp only [List.mem_singleton] at hpc
    subst hpc
    exact hg
  | crash g ts =>
    obtain ⟨hinj, hfresh, -, hpc, hfile, hfits⟩ := hi
    exact ⟨hinj, hfresh, by simp, by simp, fun _ => hfile ho.2, hfits⟩

theorem kInv {env : Env I} {L : Nat → Nat → Prop} (hL : ∀ a, L a a) {k : Bytes} (hk : 47 ∉ k) {s : State I}
    (h : ReachableIf env (OneAtATime env L k) s) : KInv env L k s := by
  induction h with
  | start =>
    refine ⟨by simp, by simp, by simp, by simp, fun _ => by simp [FileInv, sessions], ?_⟩
    intro l1 e l2 h
    simp at h
  | step s l s' hr ho hs ih => exact ih.step hL hk ho hs

/-! ## Closing -/

/-- The goroutine is past looking whether the file exists. -/
def PC.busy (env : Env I) (p : Path) : PC I → Bool
  | .saving k .. | .writing k .. | .reading k .. => decide (env.path k = p)
  | _ => false

theorem dead_append {env : Env I} {p : Path} {log : List (Ev I)} {e : Ev I} (h : Dead env p (log ++ [e])) :
    (∃ key, e = .closeEnd key true ∧ env.path key = p) ∨
      (Dead env p log ∧ ∀ key, env.path key = p → e ≠ .createStart key) := by
  obtain ⟨l1, key, l2, hl, hp, hn⟩ := h
  rcases List.eq_nil_or_concat l2 with rfl | ⟨l3, y, rfl⟩
  · have := List.append_inj' hl rfl
    simp only [List.cons.injEq, and_true] at this
    exact .inl ⟨key, this.2, hp⟩
  · rw [List.concat_eq_append] at hl hn
    have h' : log ++ [e] = (l1 ++ .closeEnd key true :: l3) ++ [y] := by simpa using hl
    have := List.append_inj' h' rfl
    simp only [List.cons.injEq, and_true] at this
    refine .inr ⟨⟨l1, key, l3, this.1, hp, fun k' hk' hm => hn k' hk' (by simp [hm])⟩, ?_⟩
    intro k' hk' he
    exact hn k' hk' (by simp [← this.2, he])

structure DInv (env : Env I) (s : State I) : Prop where
  dead : ∀ p, Dead env p s.g.log → s.g.names p = none ∧ ∀ pc ∈ s.threads, pc.busy env p = false
  alone : ∀ p, 0 < s.threads.countP (fun pc => pc.closes && decide (env.path pc.key = p)) →
    s.threads.countP (fun pc => decide (env.path pc.key = p)) = 1
  notFound : ∀ l1 key now f l2, s.g.log = l1 ++ .lookEnd key now (.found f) :: l2 → ¬ Dead env (env.path key) l1

theorem Acts.pcs {env : Env I} {g g' : G I} {pc : PC I} {pcs : List (PC I)} (h : Acts env g pc g' pcs) :
    pcs = [] ∨ ∃ pc', pcs = [pc'] ∧ pc'.key = pc.key ∧ pc'.closes = false := by
  cases h with
  | saveOld | saveNew | write | statSome | read => exact .inr ⟨_, rfl, rfl, rfl⟩
  | _ => exact .inl rfl

theorem found_split {log l1 l2 : List (Ev I)} {e : Ev I} {key : Bytes} {now : Nat} {f : SessionFile I}
    (h : log ++ [e] = l1 ++ .lookEnd key now (.found f) :: l2) :
    (l1 = log ∧ e = .lookEnd key now (.found f)) ∨ ∃ l3, log = l1 ++ .lookEnd key now (.found f) :: l3 := by
  rcases List.eq_nil_or_concat l2 with rfl | ⟨l3, y, rfl⟩
  · have := List.append_inj' h rfl
    simp only [List.cons.injEq, and_true] at this
    exact .inl ⟨this.1.symm, this.2⟩
  · rw [List.concat_eq_append] at h
    have h' : log ++ [e] = (l1 ++ .lookEnd key now (.found f) :: l3) ++ [y] := by simpa using h
    exact .inr ⟨l3, (List.append_inj' h' rfl).1⟩

/-- The event a step records. -/
theorem Acts.event {env : Env I} {g g' : G I} {pc : PC I} {pcs : List (PC I)} (h : Acts env g pc g' pcs) :
    g'.log = g.log ∨ ∃ e, g'.log = g.log ++ [e] ∧ (∀ key, e ≠ .createStart key) ∧
      (∀ key, e = .closeEnd key true → pc = .removing key ∧ g'.names (env.path key) = none) ∧
      (∀ key now f, e = .lookEnd key now (.found f) → pc.busy env (env.path key) = true) := by
  cases h with
  | saveFailed key f a hf =>
    refine .inr ⟨_, rfl, ?_, ?_, ?_⟩ <;> cases a <;> simp [finish]
  | saved key f i data off a hl =>
    refine .inr ⟨_, rfl, ?_, ?_, ?_⟩ <;> cases a <;> simp [finish]
    simp [PC.busy]
  | statNone key now hu hn => exact .inr ⟨_, rfl, by simp, by simp, by simp⟩
  | statBad key now res hu hr =>
    refine .inr ⟨_, rfl, by simp, by simp, ?_⟩
    rcases hr with rfl | rfl <;> simp
  | readFailed key now hst => exact .inr ⟨_, rfl, by simp, by simp, by simp⟩
  | removeNone key hn => exact .inr ⟨_, rfl, by simp, by simp, by simp⟩
  | remove key i hu hn =>
    refine .inr ⟨_, rfl, by simp, ?_, by simp⟩
    intro key' h
    cases h
    exact ⟨rfl, by simp [G.ev]⟩
  | _ => exact .inl rfl

/-- A file without a name, on which nobody works, stays so. -/
theorem Acts.stays {env : Env I} {g g' : G I} {pc : PC I} {pcs : List (PC I)} (h : Acts env g pc g' pcs) (p : Path)
    (hp : g.names p = none) (hb : pc.busy env p = false) :
    g'.names p = none ∧ ∀ pc' ∈ pcs, pc'.busy env p = false := by
  cases h with
  | saveNew key f a data hm hu hn =>
    have : ¬ p = env.path key := by rintro rfl; simp [PC.busy] at hb
    simp only [if_neg this, List.mem_singleton, forall_eq]
    exact ⟨hp, by simpa [PC.busy] using hb⟩
  | saveOld key f a data i hm hu hn => simp only [List.mem_singleton, forall_eq]; exact ⟨hp, by simpa [PC.busy] using hb⟩
  | write key f i data off n a hl => simp only [List.mem_singleton, forall_eq]; exact ⟨hp, by simpa [PC.busy] using hb⟩
  | statSome key now i hu hn =>
    have : env.path key ≠ p := by rintro rfl; rw [hp] at hn; cases hn
    simp only [List.mem_singleton, forall_eq]
    exact ⟨hp, by simpa [PC.busy] using this⟩
  | read key now f hst => simp only [List.mem_singleton, forall_eq]; exact ⟨hp, by simpa [PC.busy] using hb⟩
  | remove key i hu hn =>
    refine ⟨?_, by simp⟩
    simp only [G.ev]
    split
    · rfl
    · exact hp
  | _ => exact ⟨hp, by simp⟩

theorem DInv.step {env : Env I} {s s' : State I} {l : Label I} (hi : DInv env s) (ho : CloseAlone env s l)
    (h : Step env s l s') : DInv env s' := by
  obtain ⟨hd, hal, hnf⟩ := hi
  cases h with
  | thread g g' pre post pcs pc n hact =>
    have ha := acts_of_act hact
    have hev := ha.event
    have hst := ha.stays
    simp only [List.mem_append, List.mem_cons, List.countP_append, List.countP_cons] at hd hal hnf
    have hkeep : ∀ p, Dead env p g.log → g'.names p = none ∧ ∀ pc' ∈ pre ++ (pcs ++ post), pc'.busy env p = false := by
      intro p hp
      obtain ⟨h1, h2⟩ := hd p hp
      obtain ⟨h3, h4⟩ := hst p h1 (h2 pc (.inr (.inl rfl)))
      refine ⟨h3, ?_⟩
      simp only [List.mem_append]
      rintro pc' (h | h | h)
      · exact h2 pc' (.inl h)
      · exact h4 pc' h
      · exact h2 pc' (.inr (.inr h))
    refine ⟨?_, ?_, ?_⟩
    · intro p hp
      rcases hev with hlog | ⟨e, hlog, hcs, hcl, hfd⟩
      · simp only [hlog] at hp; exact hkeep p hp
      · simp only [hlog] at hp
        rcases dead_append hp with ⟨key, he, hkp⟩ | ⟨hp', _⟩
        · obtain ⟨rfl, hn⟩ := hcl key he
          subst hkp
          refine ⟨hn, ?_⟩
          have hcount := hal (env.path key) (by
            have e1 : (PC.removing key : PC I).closes = true := rfl
            have e2 : (PC.removing key : PC I).key = key := rfl
            simp only [e1, e2, Bool.true_and, decide_true, if_true]; omega)
          have hpc : (PC.removing key : PC I).key = key := rfl
          simp only [hpc, decide_true, if_true] at hcount
          have hz1 : pre.countP (fun pc => decide (env.path pc.key = env.path key)) = 0 := by omega
          have hz2 : post.countP (fun pc => decide (env.path pc.key = env.path key)) = 0 := by omega
          rw [List.countP_eq_zero] at hz1 hz2
          have hbk : ∀ x : PC I, ¬ decide (env.path x.key = env.path key) = true → x.busy env (env.path key) = false := by
            intro x hx
            simp only [decide_eq_true_eq] at hx
            cases x <;> simp only [PC.busy, PC.key, decide_eq_false_iff_not] at hx ⊢ <;> exact hx
          simp only [List.mem_append]
          rintro pc' (h | h | h)
          · exact hbk _ (hz1 pc' h)
          · cases ha <;> simp at h
          · exact hbk _ (hz2 pc' h)
        · exact hkeep p hp'
    · intro p hp
      have hal' := hal p
      simp only [List.countP_append] at hp ⊢
      have hc1 : pre.countP (fun pc => pc.closes && decide (env.path pc.key = p)) ≤
          pre.countP (fun pc => decide (env.path pc.key = p)) := List.countP_mono_left (by simp)
      have hc2 : post.countP (fun pc => pc.closes && decide (env.path pc.key = p)) ≤
          post.countP (fun pc => decide (env.path pc.key = p)) := List.countP_mono_left (by simp)
      rcases ha.pcs with rfl | ⟨pc', rfl, hkey, hcl⟩
      · simp only [List.countP_nil] at hp ⊢
        split at hal' <;> split at hal' <;> simp_all <;> omega
      · simp only [List.countP_singleton, hkey, hcl, Bool.false_and] at hp ⊢
        split at hal' <;> split at hal' <;> simp_all <;> omega
    · intro l1 key now f l2 hl
      rcases hev with hlog | ⟨e, hlog, hcs, hcl, hfd⟩
      · simp only [hlog] at hl; exact hnf l1 key now f l2 hl
      · simp only [hlog] at hl
        rcases found_split hl with ⟨rfl, he⟩ | ⟨l3, h3⟩
        · intro hdead
          have := (hd _ hdead).2 pc (.inr (.inl rfl))
          rw [hfd key now f he] at this
          cases this
        · exact hnf l1 key now f l3 h3
  | create g ts key f =>
    simp only [CloseAlone] at ho
    simp only at hd hal hnf
    refine ⟨?_, ?_, ?_⟩
    · intro p hp
      simp only [G.ev] at hp
      rcases dead_append hp with ⟨key', he, _⟩ | ⟨hp', hne⟩
      · cases he
      · obtain ⟨h1, h2⟩ := hd p hp'
        refine ⟨h1, ?_⟩
        simp only [List.mem_cons]
        rintro pc (rfl | h)
        · have : env.path key ≠ p := fun h => hne key h rfl
          simpa [PC.busy] using this
        · exact h2 pc h
    · intro p hp
      have e1 : (PC.saving key f .created : PC I).closes = false := rfl
      have e2 : (PC.saving key f .created : PC I).key = key := rfl
      simp only [List.countP_cons, e1, e2, Bool.false_and] at hp ⊢
      have hp' : 0 < ts.countP (fun pc => pc.closes && decide (env.path pc.key = p)) := by simpa using hp
      have := hal p hp'
      obtain ⟨x, hx, hxc⟩ := List.countP_pos_iff.mp hp'
      simp only [Bool.and_eq_true, decide_eq_true_eq] at hxc
      have hne := ho x hx hxc.1
      have : ¬ env.path key = p := fun h => hne (hxc.2.trans h.symm)
      simpa [this]
    · intro l1 key' now f' l2 hl
      simp only [G.ev] at hl
      rcases found_split hl with ⟨rfl, he⟩ | ⟨l3, h3⟩
      · cases he
      · exact hnf l1 key' now f' l3 h3
  | look g ts key now =>
    simp only [CloseAlone] at ho
    simp only at hd hal hnf
    refine ⟨?_, ?_, hnf⟩
    · intro p hp
      obtain ⟨h1, h2⟩ := hd p hp
      refine ⟨h1, ?_⟩
      simp only [List.mem_cons]
      rintro pc (rfl | h)
      · rfl
      · exact h2 pc h
    · intro p hp
      have e1 : (PC.statting key now : PC I).closes = false := rfl
      have e2 : (PC.statting key now : PC I).key = key := rfl
      simp only [List.countP_cons, e1, e2, Bool.false_and] at hp ⊢
      have hp' : 0 < ts.countP (fun pc => pc.closes && decide (env.path pc.key = p)) := by simpa using hp
      have := hal p hp'
      obtain ⟨x, hx, hxc⟩ := List.countP_pos_iff.mp hp'
      simp only [Bool.and_eq_true, decide_eq_true_eq] at hxc
      have hne := ho x hx hxc.1
      have : ¬ env.path key = p := fun h => hne (hxc.2.trans h.symm)
      simpa [this]
  | close g ts key =>
    simp only [CloseAlone] at ho
    simp only at hd hal hnf
    refine ⟨?_, ?_, hnf⟩
    · intro p hp
      obtain ⟨h1, h2⟩ := hd p hp
      refine ⟨h1, ?_⟩
      simp only [List.mem_cons]
      rintro pc (rfl | h)
      · rfl
      · exact h2 pc h
    · intro p hp
      have e1 : (PC.removing key : PC I).closes = true := rfl
      have e2 : (PC.removing key : PC I).key = key := rfl
      simp only [List.countP_cons, e1, e2, Bool.true_and] at hp ⊢
      by_cases hk : env.path key = p
      · subst hk
        have : ts.countP (fun pc => decide (env.path pc.key = env.path key)) = 0 := by
          rw [List.countP_eq_zero]; intro x hx; simpa using ho x hx
        simp [this]
      · simp only [hk, decide_false] at hp ⊢
        simpa using hal p (by simpa using hp)
  | crash g ts =>
    refine ⟨fun p hp => ⟨(hd p hp).1, by simp⟩, by simp, hnf⟩

theorem dInv {env : Env I} {s : State I} (h : ReachableIf env (CloseAlone env) s) : DInv env s := by
  induction h with
  | start =>
    refine ⟨?_, by simp, ?_⟩
    · rintro p ⟨l1, key, l2, h, _⟩; simp at h
    · intro l1 key now f l2 h; simp at h
  | step s l s' hr ho hs ih => exact ih.step ho hs

end Webwire.Store
