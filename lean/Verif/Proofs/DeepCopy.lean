import Verif.Spec.DeepCopy

/-!
# Copying: lemmas
-/

set_option autoImplicit false

namespace Webwire.Copying

variable {h h' : Heap} {v v' w : Val}

/-! ## Reachability -/

theorem elem_locs {l i x : Nat} (hx : x ∈ (h.elem l i).locs) : x ∈ (h.objs l).locs := by
  unfold Heap.elem at hx
  split at hx
  · rename_i vs e
    rw [e]
    simp only [Obj.locs, List.mem_flatMap]
    by_cases hi : i < vs.length
    · simp only [List.getD, List.getElem?_eq_getElem hi, Option.getD_some] at hx
      exact ⟨_, List.getElem_mem hi, hx⟩
    · simp only [List.getD, List.getElem?_eq_none (Nat.le_of_not_lt hi), Option.getD_none] at hx
      simp [Val.locs] at hx
  · simp [Val.locs] at hx

theorem get_mem {m : GoMap Key Val} {k : Key} (hg : m.get k = some v) : (k, v) ∈ m := by
  induction m with
  | nil => simp [GoMap.get] at hg
  | cons e t ih =>
    obtain ⟨a, b⟩ := e
    simp only [GoMap.get] at hg
    split at hg
    · cases hg; rename_i e; subst e; simp
    · exact List.mem_cons_of_mem _ (ih hg)

theorem get_locs {l x : Nat} {k : Key} (hg : (h.entries l).get k = some v) (hx : x ∈ v.locs) : x ∈ (h.objs l).locs := by
  unfold Heap.entries at hg
  split at hg
  · rename_i m e
    rw [e]
    simp only [Obj.locs, List.mem_flatMap]
    exact ⟨_, get_mem hg, hx⟩
  · simp [GoMap.get] at hg

/-- The addresses in a part are in the value or in an object the value refers to. -/
theorem sel_locs {s : Sel} {x : Loc} (hs : v.sel h s = some w) (hx : x ∈ w.locs) :
    x ∈ v.locs ∨ ∃ l ∈ v.locs, x ∈ (h.objs l).locs := by
  unfold Val.sel at hs
  split at hs
  · cases hs; exact .inl hx
  · split at hs
    · cases hs; exact .inr ⟨_, by simp [Val.locs], elem_locs hx⟩
    · cases hs
  · exact .inr ⟨_, by simp [Val.locs], get_locs hs hx⟩
  · split at hs
    · rename_i l _ _ e; cases hs
      exact .inr ⟨l, by simp [Val.locs], by rw [e]; exact hx⟩
    · cases hs
  · cases hs; left; simp [Val.locs, hx]
  · cases hs; left; simp [Val.locs, hx]
  · cases hs

theorem Reach.sel {s : Sel} {x : Loc} (hs : v.sel h s = some w) (hx : Reach h w x) : Reach h v x := by
  induction hx with
  | here l hl =>
    rcases sel_locs hs hl with h1 | ⟨l', h1, h2⟩
    · exact .here _ h1
    · exact .there _ _ (.here _ h1) h2
  | there l l' _ hl ih => exact .there _ _ ih hl

theorem Reach.walk {p : List Sel} {x : Loc} (hs : walk h v p = some w) (hx : Reach h w x) : Reach h v x := by
  induction p generalizing v with
  | nil => simp only [Copying.walk, Option.some.injEq] at hs; subst hs; exact hx
  | cons s p ih =>
    simp only [Copying.walk, Option.bind_eq_some_iff] at hs
    obtain ⟨u, h1, h2⟩ := hs
    exact .sel h1 (ih h2)

/-- The same objects where it matters. -/
def Agree (h h' : Heap) (v : Val) : Prop := ∀ l, Reach h v l → h'.objs l = h.objs l

theorem Agree.reach (ha : Agree h h' v) {l : Loc} : Reach h' v l ↔ Reach h v l := by
  constructor
  · intro hr
    induction hr with
    | here l hl => exact .here _ hl
    | there l l' _ hl ih => rw [ha l ih] at hl; exact .there _ _ ih hl
  · intro hr
    induction hr with
    | here l hl => exact .here _ hl
    | there l l' hr hl ih => rw [← ha l hr] at hl; exact .there _ _ ih hl

theorem Agree.sel_eq (ha : Agree h h' v) (s : Sel) : v.sel h' s = v.sel h s := by
  unfold Val.sel
  split
  · rfl
  · rw [Heap.elem, Heap.elem, ha _ (.here _ (by simp [Val.locs]))]
  · rw [Heap.entries, Heap.entries, ha _ (.here _ (by simp [Val.locs]))]
  · rw [ha _ (.here _ (by simp [Val.locs]))]
  · rfl
  · rfl
  · rfl

theorem Agree.part {s : Sel} (ha : Agree h h' v) (hs : v.sel h s = some w) : Agree h h' w :=
  fun l hl => ha l (.sel hs hl)

theorem Agree.walk_eq (ha : Agree h h' v) (p : List Sel) : walk h' v p = walk h v p := by
  induction p generalizing v with
  | nil => rfl
  | cons s p ih =>
    simp only [walk, ha.sel_eq]
    cases hs : v.sel h s with
    | none => rfl
    | some u => exact ih (ha.part hs)

theorem Agree.same (ha : Agree h h' v) : Same h h' v v := fun p => by rw [look, look, ha.walk_eq]

theorem Agree.symm (ha : Agree h h' v) : Agree h' h v := fun l hl => (ha l (ha.reach.mp hl)).symm

theorem Agree.trans {h'' : Heap} (ha : Agree h h' v) (hb : Agree h' h'' v) : Agree h h'' v :=
  fun l hl => (hb l (ha.reach.mpr hl)).trans (ha l hl)

theorem look_cons (s : Sel) (p : List Sel) : look h v (s :: p) = (v.sel h s).bind fun w => look h w p := by
  simp only [look, walk]
  cases v.sel h s <;> simp

theorem Same.refl : Same h h v v := fun _ => rfl

theorem Same.trans {h'' : Heap} {v'' : Val} (h1 : Same h h' v v') (h2 : Same h' h'' v' v'') : Same h h'' v v'' :=
  fun p => (h2 p).trans (h1 p)

/-! ## Validity of parts -/

theorem Valid.part {s : Sel} (hv : Valid h v) (hs : v.sel h s = some w) : Valid h w :=
  ⟨fun l hl => hv.used l (.sel hs hl), fun p l off len cap hp => hv.slices (s :: p) l off len cap (by simp [walk, hs, hp])⟩

theorem Valid.agree (hv : Valid h v) (ha : Agree h h' v) (hn : h.next ≤ h'.next) : Valid h' v :=
  ⟨fun l hl => Nat.lt_of_lt_of_le (hv.used l (ha.reach.mp hl)) hn, fun p l off len cap hp =>
    hv.slices p l off len cap (by rw [← ha.walk_eq]; exact hp)⟩

theorem Deep.part {s : Sel} (hv : Deep h v) (hs : v.sel h s = some w) : Deep h w :=
  fun p u hp => hv (s :: p) u (by simp [walk, hs, hp])

theorem Deep.agree (hv : Deep h v) (ha : Agree h h' v) : Deep h' v := fun p u hp => hv p u (by rw [← ha.walk_eq]; exact hp)

theorem Keyed.part {s : Sel} (hv : Keyed h v) (hs : v.sel h s = some w) : Keyed h w :=
  fun p l hp => hv (s :: p) l (by simp [walk, hs, hp])

/-! ## Isolation -/

/-- Who cannot reach an address cannot change what is there. -/
theorem isolated_of_disjoint (hd : ∀ l, Reach h v l → ¬ Reach h w l) (hw : ∀ l, Reach h w l → l < h.next) :
    Isolated h v w := by
  intro h' held' hdo
  have key : ∀ y, DoesAll (h, [v]) y → Agree h y.1 w ∧ h.next ≤ y.1.next ∧ ∃ A : Loc → Prop,
      (∀ l, has y.2 l → A l) ∧ (∀ l, A l → ∀ l' ∈ (y.1.objs l).locs, A l') ∧ (∀ l, A l → ¬ Reach h w l) := by
    intro y hy
    induction hy with
    | start =>
      refine ⟨fun _ _ => rfl, Nat.le_refl _, Reach h v, ?_, ?_, hd⟩
      · rintro l ⟨u, hu, hl⟩
        simp only [List.mem_singleton] at hu
        subst hu; exact .here _ hl
      · exact fun l hl l' hl' => .there _ _ hl hl'
    | step y z _ hst ih =>
      obtain ⟨hag, hn, A, h1, h2, h3⟩ := ih
      cases hst with
      | take h0 held u u' s hu hs =>
        refine ⟨hag, hn, A, ?_, h2, h3⟩
        rintro l ⟨x, hx, hl⟩
        rcases List.mem_cons.mp hx with rfl | hx
        · rcases sel_locs hs hl with hl | ⟨l0, hl0, hl⟩
          · exact h1 l ⟨u, hu, hl⟩
          · exact h2 l0 (h1 l0 ⟨u, hu, hl0⟩) l hl
        · exact h1 l ⟨x, hx, hl⟩
      | make h0 held u hu =>
        refine ⟨hag, hn, A, ?_, h2, h3⟩
        rintro l ⟨x, hx, hl⟩
        rcases List.mem_cons.mp hx with rfl | hx
        · exact h1 l (hu l hl)
        · exact h1 l ⟨x, hx, hl⟩
      | write h0 held l o hl ho =>
        refine ⟨fun x hx => ?_, hn, A, h1, ?_, h3⟩
        · have : x ≠ l := by rintro rfl; exact h3 _ (h1 _ hl) hx
          simp only [Heap.put, this]
          exact hag x hx
        · intro x hx x' hx'
          simp only [Heap.put] at hx'
          split at hx'
          · exact h1 _ (ho _ hx')
          · exact h2 x hx x' hx'
      | alloc h0 held u o ho hu =>
        have hnext : ∀ x, Reach h w x → x ≠ h0.next := by
          intro x hx e
          exact Nat.lt_irrefl _ (Nat.lt_of_lt_of_le (e ▸ hw x hx) hn)
        refine ⟨fun x hx => ?_, Nat.le_succ_of_le hn, fun x => A x ∨ x = h0.next, ?_, ?_, ?_⟩
        · simp only [Heap.alloc, hnext x hx]
          exact hag x hx
        · rintro l ⟨x, hx, hl⟩
          rcases List.mem_cons.mp hx with rfl | hx
          · rw [hu] at hl; simp at hl; exact .inr hl
          · exact .inl (h1 l ⟨x, hx, hl⟩)
        · intro x hx x' hx'
          simp only [Heap.alloc] at hx'
          split at hx'
          · exact .inl (h1 _ (ho _ hx'))
          · rename_i hne
            exact .inl (h2 x (hx.resolve_right hne) x' hx')
        · rintro x (hx | rfl) hr
          · exact h3 x hx hr
          · exact hnext _ hr rfl
  exact (key _ hdo).1.same

end Webwire.Copying
