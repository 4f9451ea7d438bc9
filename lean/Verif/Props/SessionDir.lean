import Verif.Model.SessionDir
import Mathlib.Tactic.ByContra
import Mathlib.Data.List.Induction

/-!
# The directory of the default session manager can be used

Statement C84 of `properties.jsonl`, about `Model/SessionDir`.
-/

set_option autoImplicit false

namespace Webwire.Dir

/-- What is in a directory is in a directory. -/
def Tree (fs : FS) : Prop := (∃ p, fs [] = some (.dir p)) ∧ ∀ p c, fs (p ++ [c]) ≠ none → ∃ q, fs p = some (.dir q)

/-- C84: in a directory in which `NewDefaultSessionManager` agreed to keep sessions, sessions can be saved. -/
def C84_full : Prop := ∀ (pr : Proc) (fs : FS) (exe : Path) (path : Option Path) (fs' : FS) (dir : Path), Tree fs →
  newManager pr fs exe path = .ok (fs', dir) → ∀ name, (∀ p, fs' (dir ++ [name]) ≠ some (.dir p)) →
  ∃ fs'', save pr fs' dir name = .ok fs''

/-! ## Path resolution -/

theorem walk_append (pr : Proc) (fs : FS) (here p : Path) (c : Bytes) : walk pr fs here (p ++ [c]) =
    match walk pr fs here p with
    | .error e => .error e
    | .ok () => match fs (here ++ p) with
      | none => .error .noent
      | some .file => .error .notdir
      | some (.dir q) => if pr.root || q.x then .ok () else .error .acces := by
  induction p generalizing here with
  | nil =>
    simp only [List.nil_append, walk, List.append_nil]
    cases fs here with
    | none => rfl
    | some n => cases n <;> rfl
  | cons d p ih =>
    simp only [List.cons_append, walk]
    cases fs here with
    | none => rfl
    | some n =>
      cases n with
      | file => rfl
      | dir q =>
        simp only
        split
        · rw [ih]; simp
        · rfl

/-- What a new directory is like. -/
theorem mkdir_ok {pr : Proc} {fs fs' : FS} {p : Path} {m : Perm} (h : mkdir pr fs p m = .ok fs') :
    walk pr fs [] p = .ok () ∧ fs p = none ∧ writable pr fs p.dropLast = true ∧
    fs' = fun q => if q = p then some (.dir ⟨m.r && !pr.umask.r, m.w && !pr.umask.w, m.x && !pr.umask.x⟩) else fs q := by
  unfold mkdir at h
  split at h
  · cases h
  · split at h
    · cases h
    · split at h
      · rename_i h1 _ h2 h3
        cases h
        exact ⟨h1, h2, h3, rfl⟩
      · cases h

theorem stat_ok {pr : Proc} {fs : FS} {p : Path} {n : Node} (h : stat pr fs p = .ok n) :
    walk pr fs [] p = .ok () ∧ fs p = some n := by
  unfold stat at h
  split at h
  · cases h
  · split at h
    · cases h
    · rename_i h1 _ _ h2; cases h; exact ⟨h1, h2⟩

/-- Directories made do not get in the way. -/
theorem walk_mono {pr : Proc} {fs fs' : FS} (hm : ∀ q n, fs q = some n → fs' q = some n) {p here : Path}
    (h : walk pr fs here p = .ok ()) : walk pr fs' here p = .ok () := by
  induction p generalizing here with
  | nil => rfl
  | cons c p ih =>
    simp only [walk] at h ⊢
    cases hf : fs here with
    | none => rw [hf] at h; cases h
    | some n =>
      rw [hf] at h
      rw [hm _ _ hf]
      cases n with
      | file => cases h
      | dir q =>
        simp only at h ⊢
        split at h
        · rename_i hx; rw [if_pos hx]; exact ih h
        · cases h

/-- `MkdirAll` only adds directories that are reached, and afterwards the directory is there. -/
theorem mkdirAll_mono (pr : Proc) (fs : FS) (m : Perm) (p : Path) :
    ∀ q n, fs q = some n → (mkdirAll pr fs m p).1 q = some n := by
  induction p with
  | nil => intro q n h; unfold mkdirAll; split <;> exact h
  | cons c up ih =>
    intro q n h
    have h1 := ih q n h
    unfold mkdirAll
    split
    · exact h
    · exact h
    · split
      · rename_i hh; rw [hh] at h1; exact h1
      · rename_i hh; rw [hh] at h1
        split
        · rename_i hk
          obtain ⟨-, h3, -, rfl⟩ := mkdir_ok hk
          simp only
          split
          · rename_i e; subst e; exact absurd (h3.symm.trans h1) (by simp)
          · exact h1
        · split <;> exact h1

/-- Nothing deeper is touched. -/
theorem mkdirAll_deeper (pr : Proc) (fs : FS) (m : Perm) (p : Path) :
    ∀ q : Path, p.length < q.length → (mkdirAll pr fs m p).1 q = fs q := by
  induction p with
  | nil => intro q _; unfold mkdirAll; split <;> rfl
  | cons c up ih =>
    intro q hq
    have h1 := ih q (by simp at hq; omega)
    unfold mkdirAll
    split
    · rfl
    · rfl
    · split
      · rename_i hh; rw [hh] at h1; exact h1
      · rename_i hh; rw [hh] at h1
        split
        · rename_i hk
          obtain ⟨-, -, -, rfl⟩ := mkdir_ok hk
          simp only
          rw [if_neg (by rintro rfl; simp at hq)]
          exact h1
        · split <;> exact h1

theorem mkdirAll_dir {pr : Proc} {fs fs' : FS} {m : Perm} {p : Path} (h : mkdirAll pr fs m p = (fs', none)) :
    walk pr fs' [] p.reverse = .ok () ∧ ∃ q, fs' p.reverse = some (.dir q) := by
  cases p with
  | nil =>
    unfold mkdirAll at h
    split at h <;> simp at h
    rename_i hs
    subst h
    exact ⟨(stat_ok hs).1, _, (stat_ok hs).2⟩
  | cons c up =>
    unfold mkdirAll at h
    split at h
    · rename_i hs
      simp at h; subst h
      exact ⟨(stat_ok hs).1, _, (stat_ok hs).2⟩
    · simp at h
    · split at h
      · simp at h
      · split at h
        · rename_i hk
          simp at h; subst h
          obtain ⟨h1, h2, -, rfl⟩ := mkdir_ok hk
          refine ⟨walk_mono (fun q n hq => ?_) h1, _, if_pos rfl⟩
          show (if _ then _ else _) = _
          split
          · rename_i e; subst e; rw [h2] at hq; cases hq
          · exact hq
        · split at h
          · rename_i hs
            simp at h; subst h
            exact ⟨(stat_ok hs).1, _, (stat_ok hs).2⟩
          · simp at h

/-- A directory that was not there has been made with the mode given. -/
theorem mkdirAll_made {pr : Proc} {fs fs' : FS} {m : Perm} {p : Path} (h : mkdirAll pr fs m p = (fs', none))
    (hn : fs p.reverse = none) : ∃ q, fs' p.reverse = some (.dir q) ∧ (m.x = false → q.x = false) := by
  induction p generalizing fs' with
  | nil =>
    unfold mkdirAll at h
    split at h <;> simp at h
    rename_i hs
    exact absurd ((stat_ok hs).2.symm.trans hn) (by simp)
  | cons c up _ =>
    have key : ∀ fs1, mkdirAll pr fs m up = (fs1, none) → fs1 (c :: up).reverse = none := by
      intro fs1 h1
      have := mkdirAll_deeper pr fs m up (c :: up).reverse (by simp)
      rw [h1] at this
      exact this.trans hn
    unfold mkdirAll at h
    split at h
    · rename_i hs; rw [(stat_ok hs).2] at hn; cases hn
    · simp at h
    · split at h
      · simp at h
      · rename_i hu
        split at h
        · rename_i hk
          simp at h; subst h
          obtain ⟨h1, h2, -, rfl⟩ := mkdir_ok hk
          exact ⟨_, if_pos rfl, fun hx => by simp [hx]⟩
        · split at h
          · rename_i hs
            exact absurd ((key _ hu).symm.trans (stat_ok hs).2) (by simp)
          · simp at h

/-! ## What happens -/

/-- The directory of the manager. -/
def dirOf (exe : Path) : Option Path → Path
  | none => exe ++ [defaultName]
  | some p => p

theorem newManager_ok {pr : Proc} {fs fs' : FS} {exe dir : Path} {path : Option Path}
    (h : newManager pr fs exe path = .ok (fs', dir)) : dir = dirOf exe path ∧
    ((∃ n, stat pr fs dir = .ok n ∧ fs' = fs) ∨
      stat pr fs dir = .error .noent ∧ mkdirAll pr fs mode0640 dir.reverse = (fs', none)) := by
  unfold newManager at h
  simp only at h
  split at h
  · rename_i hs
    split at h
    · rename_i hm; cases h; exact ⟨rfl, .inr ⟨hs, hm⟩⟩
    · cases h
  · cases h
  · rename_i n hs; cases h; exact ⟨rfl, .inl ⟨n, hs, rfl⟩⟩

/-- C84 does not hold, for any process but the superuser's and whatever its umask: in a directory that
`NewDefaultSessionManager` made no session can be saved, and every lookup fails with an error. The mode 0640 lacks the
permission to search the directory. -/
theorem C84_made_violated (pr : Proc) (hr : pr.root = false) (fs fs' : FS) (exe dir : Path)
    (path : Option Path) (h : newManager pr fs exe path = .ok (fs', dir)) (hn : fs (dirOf exe path) = none)
    (name : Bytes) : save pr fs' dir name = .error .acces ∧ look pr fs' dir name = .error .acces := by
  obtain ⟨rfl, ⟨n, hs, -⟩ | ⟨hs, hm⟩⟩ := newManager_ok h
  · exact absurd ((stat_ok hs).2.symm.trans hn) (by simp)
  · have h1 := mkdirAll_dir hm
    have h2 := mkdirAll_made hm (by rw [List.reverse_reverse]; exact hn)
    rw [List.reverse_reverse] at h1 h2
    obtain ⟨q, hq, hx⟩ := h2
    have hw : walk pr fs' [] (dirOf exe path ++ [name]) = .error .acces := by
      rw [walk_append, h1.1, List.nil_append, hq]
      simp [hr, hx rfl]
    simp [save, look, openCreate, stat, hw]

/-- With more than one directory missing `NewDefaultSessionManager` panics. -/
theorem C84_nested_violated (pr : Proc) (hr : pr.root = false) (fs : FS) (exe : Path) (path : Option Path)
    (up : Path) (c : Bytes) (hp : dirOf exe path = up ++ [c]) (hu : fs up = none) (hc : fs (up ++ [c]) = none) :
    ∃ why, newManager pr fs exe path = .error (.panic why) := by
  cases h : newManager pr fs exe path with
  | error e =>
    unfold newManager at h
    simp only at h
    split at h
    · split at h
      · cases h
      · cases h; exact ⟨_, rfl⟩
    · cases h; exact ⟨_, rfl⟩
    · cases h
  | ok r =>
    exfalso
    obtain ⟨fs', dir⟩ := r
    obtain ⟨rfl, ⟨n, hs, -⟩ | ⟨hs, hm⟩⟩ := newManager_ok h
    · rw [hp] at hs
      exact absurd ((stat_ok hs).2.symm.trans hc) (by simp)
    · rw [hp, List.reverse_append] at hm
      simp only [List.reverse_cons, List.reverse_nil, List.nil_append, List.cons_append] at hm
      unfold mkdirAll at hm
      have hrev : (c :: up.reverse).reverse = up ++ [c] := by simp
      rw [hrev] at hm
      split at hm
      · rename_i hs1; exact absurd ((stat_ok hs1).2.symm.trans hc) (by simp)
      · simp at hm
      · split at hm
        · simp at hm
        · rename_i fs1 hm1
          obtain ⟨q, hq, hx⟩ := mkdirAll_made hm1 (by simpa using hu)
          have h1 := (mkdirAll_dir hm1).1
          rw [List.reverse_reverse] at hq h1
          have hw : walk pr fs1 [] (up ++ [c]) = .error .acces := by
            rw [walk_append, h1, List.nil_append, hq]
            simp [hr, hx rfl]
          simp [mkdir, stat, hw] at hm

/-- An ordinary user's file system: "/a" and the directory of the program "/b", both usable. -/
def home : FS := fun p => if p = [] ∨ p = [[97]] ∨ p = [[98]] then some (.dir ⟨true, true, true⟩) else none

theorem home_tree : Tree home := by
  refine ⟨⟨_, rfl⟩, fun p c h => ?_⟩
  refine ⟨⟨true, true, true⟩, ?_⟩
  have : p ++ [c] = [] ∨ p ++ [c] = [[97]] ∨ p ++ [c] = [[98]] := by
    by_contra hn; exact h (if_neg hn)
  rcases this with h | h | h
  · simp at h
  · have : p = [] := by cases p <;> simp_all
    subst this; rfl
  · have : p = [] := by cases p <;> simp_all
    subst this; rfl

/-- A process of an ordinary user, umask 022. -/
def user : Proc := ⟨false, ⟨false, false, false⟩⟩

/-- The default directory is made, and is of no use. -/
example : ∃ fs' dir, newManager user home [[98]] none = .ok (fs', dir) ∧ home (dirOf [[98]] none) = none ∧
    save user fs' dir [97] = .error .acces := by
  have h : ∃ fs', newManager user home [[98]] none = .ok (fs', [[98], defaultName]) := ⟨_, rfl⟩
  obtain ⟨fs', h⟩ := h
  exact ⟨fs', _, h, rfl, (C84_made_violated user rfl home fs' _ _ _ h rfl [97]).1⟩

example : ∃ why, newManager user home [[98]] (some [[97], [99], [100]]) = .error (.panic why) :=
  C84_nested_violated user rfl home _ _ [[97], [99]] [100] rfl rfl rfl

theorem C84_violated : ¬ C84_full := by
  intro hf
  have h : ∃ fs', newManager user home [[98]] none = .ok (fs', [[98], defaultName]) ∧
      fs' [[98], defaultName, [97]] = none := ⟨_, rfl, rfl⟩
  obtain ⟨fs', h, hd⟩ := h
  obtain ⟨fs'', h2⟩ := hf user home _ _ fs' _ home_tree h [97] (by
    intro p hp
    exact absurd (hd.symm.trans hp) (by simp))
  rw [(C84_made_violated user rfl home fs' _ _ _ h rfl [97]).1] at h2
  cases h2

/-- C84 for the superuser, and for others if the directory is there already and its permissions suffice. (What is in the
place of the directory has to be a directory: that is not checked either.) The directory is the configured one, and the file
is in it. -/
theorem C84_partial (pr : Proc) (fs fs' : FS) (exe dir : Path) (path : Option Path)
    (h : newManager pr fs exe path = .ok (fs', dir)) (hnf : fs (dirOf exe path) ≠ some .file)
    (hp : pr.root = true ∨ ∃ q, fs (dirOf exe path) = some (.dir q) ∧ q.w = true ∧ q.x = true) (name : Bytes)
    (hd : ∀ p, fs' (dir ++ [name]) ≠ some (.dir p)) : dir = dirOf exe path ∧ ∃ fs'', save pr fs' dir name = .ok fs'' ∧
      look pr fs'' dir name = .ok .file ∧ fs'' (dir ++ [name]) = some .file ∧ ∀ q, q ≠ dir ++ [name] → fs'' q = fs' q := by
  obtain ⟨rfl, hcase⟩ := newManager_ok h
  refine ⟨rfl, ?_⟩
  have key : walk pr fs' [] (dirOf exe path) = .ok () ∧ ∃ q, fs' (dirOf exe path) = some (.dir q) ∧
      (pr.root || q.w && q.x) = true := by
    rcases hcase with ⟨n, hs, rfl⟩ | ⟨hs, hm⟩
    · obtain ⟨h1, h2⟩ := stat_ok hs
      refine ⟨h1, ?_⟩
      cases n with
      | file => exact absurd h2 hnf
      | dir q =>
        refine ⟨q, h2, ?_⟩
        rcases hp with hp | ⟨q', hq', hw, hx⟩
        · simp [hp]
        · rw [h2] at hq'; cases hq'; simp [hw, hx]
    · have h1 := mkdirAll_dir hm
      rw [List.reverse_reverse] at h1
      obtain ⟨h1, q, hq⟩ := h1
      refine ⟨h1, q, hq, ?_⟩
      rcases hp with hp | ⟨q', hq', hw, hx⟩
      · simp [hp]
      · have := mkdirAll_mono pr fs mode0640 (dirOf exe path).reverse _ _ hq'
        rw [hm] at this
        simp only [hq, Option.some.injEq, Node.dir.injEq] at this
        subst this
        simp [hw, hx]
  obtain ⟨h1, q, hq, hqq⟩ := key
  have hx : (pr.root || q.x) = true := by
    cases hr : pr.root <;> simp_all
  have hw : walk pr fs' [] (dirOf exe path ++ [name]) = .ok () := by
    rw [walk_append, h1, List.nil_append, hq]; simp [hx]
  have hwr : writable pr fs' (dirOf exe path ++ [name]).dropLast = true := by
    simp [writable, hq, hqq]
  have hlook : ∀ fs'' : FS, (∀ q n, fs' q = some n → fs'' q = some n) → fs'' (dirOf exe path ++ [name]) = some .file →
      look pr fs'' (dirOf exe path) name = .ok .file := by
    intro fs'' hm hf
    simp [look, stat, walk_mono hm hw, hf]
  cases hn : fs' (dirOf exe path ++ [name]) with
  | none =>
    refine ⟨fun q => if q = dirOf exe path ++ [name] then some .file else fs' q, ?_, hlook _ (fun q n hq => ?_) (if_pos rfl),
      if_pos rfl, fun q hq => if_neg hq⟩
    · simp only [save, openCreate, hw, hn, hwr, if_true]
    · show (if _ then _ else _) = _
      split
      · rename_i e; subst e; rw [hn] at hq; cases hq
      · exact hq
  | some n =>
    cases n with
    | dir p => exact absurd hn (hd p)
    | file => exact ⟨fs', by simp [save, openCreate, hw, hn], hlook _ (fun _ _ h => h) hn, hn, fun _ _ => rfl⟩

/-- The superuser's process makes the directory; the user's finds one. -/
example : ∃ fs' dir, newManager ⟨true, ⟨false, false, false⟩⟩ home [[98]] (some [[97], [99], [100]]) = .ok (fs', dir) ∧
    home dir = none ∧ ∃ q, fs' dir = some (.dir q) := ⟨_, _, rfl, rfl, _, rfl⟩

example : ∃ fs', newManager user home [[98]] (some [[97]]) = .ok (fs', [[97]]) ∧ fs' [[97], [1]] = none := ⟨_, rfl, rfl⟩

/-! ## Usable directories are accepted -/

theorem walk_of {pr : Proc} {fs : FS} (p : Path)
    (h : ∀ up c, up ++ [c] <+: p → ∃ q, fs up = some (.dir q) ∧ (pr.root = true ∨ q.x = true)) :
    walk pr fs [] p = .ok () := by
  induction p using List.reverseRecOn with
  | nil => rfl
  | append_singleton p c ih =>
    rw [walk_append, ih fun up d hp => h up d (hp.trans (List.prefix_append _ _)), List.nil_append]
    obtain ⟨q, hq, hx⟩ := h p c List.prefix_rfl
    rw [hq]
    rcases hx with hx | hx <;> simp [hx]

/-- `MkdirAll` makes no files. -/
theorem mkdirAll_file (pr : Proc) (m : Perm) (p : Path) (fs : FS) (q : Path)
    (h : (mkdirAll pr fs m p).1 q = some .file) : fs q = some .file := by
  induction p with
  | nil =>
    unfold mkdirAll at h
    split at h <;> exact h
  | cons c up ih =>
    unfold mkdirAll at h
    split at h
    · exact h
    · exact h
    · split at h
      · rename_i fs1 e hm; rw [hm] at ih; exact ih h
      · rename_i fs1 hm
        rw [hm] at ih
        split at h
        · rename_i fs2 hk
          obtain ⟨-, -, -, rfl⟩ := mkdir_ok hk
          refine ih ?_
          simp only at h
          split at h
          · cases h
          · exact h
        · split at h <;> exact ih h

/-- The superuser's `MkdirAll` succeeds if no file is in the way. -/
theorem mkdirAll_root (pr : Proc) (hr : pr.root = true) (m : Perm) (p : Path) (fs : FS)
    (h0 : ∃ q, fs [] = some (.dir q)) (hf : ∀ up, up <+: p.reverse → fs up ≠ some .file) :
    (mkdirAll pr fs m p).2 = none := by
  induction p with
  | nil =>
    obtain ⟨q, hq⟩ := h0
    simp [mkdirAll, stat, walk, hq]
  | cons c up ih =>
    have hpre : up.reverse <+: (c :: up).reverse := by rw [List.reverse_cons]; exact List.prefix_append _ _
    have ih := ih fun v hv => hf v (hv.trans hpre)
    unfold mkdirAll
    split
    · rfl
    · rename_i hs; exact absurd (stat_ok hs).2 (hf _ List.prefix_rfl)
    · cases hm : mkdirAll pr fs m up with
      | mk fs1 e =>
        rw [hm] at ih
        obtain rfl : e = none := ih
        simp only
        obtain ⟨h1, q, hq⟩ := mkdirAll_dir hm
        have hw : walk pr fs1 [] (c :: up).reverse = .ok () := by
          rw [List.reverse_cons, walk_append, h1, List.nil_append, hq]; simp [hr]
        cases hn : fs1 (c :: up).reverse with
        | none =>
          have hwr : writable pr fs1 (c :: up).reverse.dropLast = true := by
            rw [List.reverse_cons, List.dropLast_concat]; simp [writable, hq, hr]
          simp only [mkdir, hw, hn, hwr, if_true]
        | some n =>
          cases n with
          | file =>
            exact absurd (mkdirAll_file pr m up fs _ (by rw [hm]; exact hn)) (hf _ List.prefix_rfl)
          | dir q' => simp only [mkdir, stat, hw, hn]

/-- C84: `NewDefaultSessionManager` accepts a directory that is there and can be reached, and changes nothing. The
superuser's makes the directory, at any depth, unless there is a file in the way. Missing: other users when the directory is
missing, for whom it is false. -/
theorem C84_accepts_partial (pr : Proc) (fs : FS) (exe : Path) (path : Option Path) (ht : Tree fs) :
    (∀ q, fs (dirOf exe path) = some (.dir q) →
      (∀ up c, up ++ [c] <+: dirOf exe path → ∃ q, fs up = some (.dir q) ∧ (pr.root = true ∨ q.x = true)) →
      newManager pr fs exe path = .ok (fs, dirOf exe path)) ∧
    (pr.root = true → (∀ up, up <+: dirOf exe path → fs up ≠ some .file) →
      ∃ fs', newManager pr fs exe path = .ok (fs', dirOf exe path)) := by
  have hdef : newManager pr fs exe path = match stat pr fs (dirOf exe path) with
      | .error .noent => match mkdirAll pr fs mode0640 (dirOf exe path).reverse with
        | (fs', none) => .ok (fs', dirOf exe path)
        | (_, some _) => .error (.panic "Couldn't create default session directory")
      | .error _ => .error (.panic "Unexpected error during default session directory creation")
      | .ok _ => .ok (fs, dirOf exe path) := rfl
  refine ⟨fun q hq hw => ?_, fun hr hf => ?_⟩
  · rw [hdef]
    simp [stat, walk_of _ hw, hq]
  · have hm := mkdirAll_root pr hr mode0640 (dirOf exe path).reverse fs ht.1 (by rwa [List.reverse_reverse])
    have hs : (∃ n, stat pr fs (dirOf exe path) = .ok n) ∨ stat pr fs (dirOf exe path) = .error .noent := by
      have hk : ∀ p : Path, (∀ up, up <+: p → fs up ≠ some .file) →
          walk pr fs [] p = .ok () ∨ walk pr fs [] p = .error .noent := by
        intro p
        induction p using List.reverseRecOn with
        | nil => exact fun _ => .inl rfl
        | append_singleton p c ih =>
          intro hp
          rw [walk_append]
          rcases ih fun up hu => hp up (hu.trans (List.prefix_append _ _)) with h | h
          · rw [h, List.nil_append]
            cases hn : fs p with
            | none => exact .inr rfl
            | some n =>
              cases n with
              | file => exact absurd hn (hp p (List.prefix_append _ _))
              | dir q => simp [hr]
          · rw [h]; exact .inr rfl
      unfold stat
      rcases hk _ hf with h | h
      · rw [h]
        cases fs (dirOf exe path) with
        | none => exact .inr rfl
        | some n => exact .inl ⟨n, rfl⟩
      · rw [h]; exact .inr rfl
    rw [hdef]
    rcases hs with ⟨n, hs⟩ | hs
    · rw [hs]; exact ⟨fs, rfl⟩
    · rw [hs]
      cases hk : mkdirAll pr fs mode0640 (dirOf exe path).reverse with
      | mk fs' e => rw [hk] at hm; obtain rfl : e = none := hm; exact ⟨fs', rfl⟩

/-- The user's "/a" is accepted. -/
example : newManager user home [[98]] (some [[97]]) = .ok (home, [[97]]) :=
  (C84_accepts_partial user home [[98]] (some [[97]]) home_tree).1 ⟨true, true, true⟩ rfl (by
    intro up c h
    obtain ⟨t, ht⟩ := h
    have : up = [] := by
      cases up with
      | nil => rfl
      | cons d u => simp [dirOf] at ht
    subst this
    exact ⟨_, rfl, .inr rfl⟩)

end Webwire.Dir
