import Verif.Proofs.DeepCopy2

/-!
# Copying: when it ends
-/

set_option autoImplicit false

namespace Webwire.Copying

theorem foldlM_mono {α β : Type} {f g : β → α → Go β} (hfg : ∀ b x b', f b x = .ok b' → g b x = .ok b') :
    ∀ (xs : List α) (b b' : β), xs.foldlM f b = .ok b' → xs.foldlM g b = .ok b' := by
  intro xs
  induction xs with
  | nil => intro b b' h; exact h
  | cons x xs ih =>
    intro b b' h
    rw [List.foldlM_cons] at h ⊢
    obtain ⟨b1, h1, h2⟩ := bind_ok h
    rw [hfg _ _ _ h1]
    exact ih _ _ h2

theorem foldlM_ok {α β : Type} {f : β → α → Go β} {P : β → Prop} :
    ∀ (xs : List α) (b : β), P b → (∀ x ∈ xs, ∀ b, P b → ∃ b', f b x = .ok b' ∧ P b') →
      ∃ b', xs.foldlM f b = .ok b' ∧ P b' := by
  intro xs
  induction xs with
  | nil => intro b hb _; exact ⟨b, rfl, hb⟩
  | cons x xs ih =>
    intro b hb hs
    obtain ⟨b1, h1, h2⟩ := hs x (by simp) b hb
    obtain ⟨b2, h3, h4⟩ := ih b1 h2 (fun y hy => hs y (List.mem_cons_of_mem _ hy))
    refine ⟨b2, ?_, h4⟩
    rw [List.foldlM_cons, h1]
    exact h3

variable {order : Heap → Loc → List Key}

/-- A deeper stack does no harm. -/
theorem copyRec_mono (n : Nat) : ∀ (h : Heap) (v : Val) (r : Heap × Val),
    copyRec order n h v = .ok r → copyRec order (n + 1) h v = .ok r := by
  induction n with
  | zero => intro h v r he; simp [copyRec, goPanic] at he
  | succ n ih =>
    intro h v r he
    cases v with
    | inter u =>
      rw [copyRec] at he ⊢
      obtain ⟨x, h1, h2⟩ := bind_ok he
      rw [ih _ _ _ h1]
      exact h2
    | slice l off len cap =>
      rw [copyRec] at he ⊢
      obtain ⟨x, h1, h2⟩ := bind_ok he
      rw [foldlM_mono (fun b i b' hb => ?_) _ _ _ h1]
      · exact h2
      · unfold copyElem at hb ⊢
        obtain ⟨y, h4, h5⟩ := bind_ok hb
        rw [ih _ _ _ h4]
        exact h5
    | map l =>
      rw [copyRec] at he ⊢
      obtain ⟨x, h1, h2⟩ := bind_ok he
      rw [foldlM_mono (fun b k b' hb => ?_) _ _ _ h1]
      · exact h2
      · unfold copyEntry at hb ⊢
        split at hb
        · simp [goPanic] at hb
        · rename_i u hu
          obtain ⟨y, h4, h5⟩ := bind_ok hb
          rw [ih _ _ _ h4]
          exact h5
    | _ => rw [copyRec] at he ⊢ <;> first | exact he | simp

theorem copyRec_le {n m : Nat} (hnm : n ≤ m) {h : Heap} {v : Val} {r : Heap × Val}
    (he : copyRec order n h v = .ok r) : copyRec order m h v = .ok r := by
  induction hnm with
  | refl => exact he
  | step _ ih => exact copyRec_mono _ _ _ _ ih

theorem Base.copied_part {h0 h h2 : Heap} {u u2 : Val} (hb : Base h0 h) (hc : Copied h u h2 u2) : Base h0 h2 :=
  ⟨Nat.lt_of_lt_of_le hb.next hc.next, fun l hl => by rw [hc.old l (Nat.lt_trans hl hb.next), hb.old l hl]⟩

theorem Base.setElem {h0 h : Heap} (hb : Base h0 h) (i : Nat) (v : Val) : Base h0 (Copying.setElem h h0.next i v) := by
  unfold Copying.setElem
  split
  · exact hb.put _
  · exact hb

/-- One bound for finitely many. -/
theorem common_bound {α : Type} {P : α → Nat → Prop} (hm : ∀ a n m, n ≤ m → P a n → P a m) (xs : List α)
    (h : ∀ a ∈ xs, ∃ n, P a n) : ∃ n, ∀ a ∈ xs, P a n := by
  induction xs with
  | nil => exact ⟨0, by simp⟩
  | cons x xs ih =>
    obtain ⟨n, hn⟩ := h x (by simp)
    obtain ⟨m, hm'⟩ := ih fun a ha => h a (List.mem_cons_of_mem _ ha)
    refine ⟨max n m, fun a ha => ?_⟩
    rcases List.mem_cons.mp ha with rfl | ha
    · exact hm _ _ _ (Nat.le_max_left _ _) hn
    · exact hm _ _ _ (Nat.le_max_right _ _) (hm' a ha)

/-- Copying in any memory that has the value. -/
def Ends (order : Heap → Loc → List Key) (h : Heap) (v : Val) (n : Nat) : Prop :=
  ∀ h1, Agree h h1 v → h.next ≤ h1.next → ∃ r, copyRec order n h1 v = .ok r

theorem Ends.le {h : Heap} {v : Val} {n m : Nat} (hnm : n ≤ m) (he : Ends order h v n) : Ends order h v m :=
  fun h1 ha hn => let ⟨r, hr⟩ := he h1 ha hn; ⟨r, copyRec_le hnm hr⟩

theorem copyRec_ends (ho : Lists order) {h : Heap} {v : Val} (hl : NoLoop h v) (hv : Valid h v) (hk : Keyed h v) :
    ∃ n, Ends order h v n := by
  induction hl with
  | intro v _ ih =>
    cases v with
    | inter u =>
      obtain ⟨n, hn⟩ := ih u (.inl rfl) (hv.part (s := .dyn) rfl) (hk.part (s := .dyn) rfl)
      refine ⟨n + 1, fun h1 ha hnx => ?_⟩
      obtain ⟨r, hr⟩ := hn h1 (ha.part (s := .dyn) rfl) hnx
      exact ⟨(r.1, .inter r.2), by rw [copyRec, hr]; rfl⟩
    | slice l off len cap =>
      have hsel : ∀ i, i < len → (Val.slice l off len cap).sel h (.elem i) = some (h.elem l (off + i)) := by
        intro i hi; simp [Val.sel, hi]
      obtain ⟨n, hn⟩ := common_bound (P := fun i n => Ends order h (h.elem l (off + i)) n) (fun _ _ _ => Ends.le)
        (List.range len) (fun i hi => by
          have hi := hsel i (List.mem_range.mp hi)
          exact ih _ (.inr (.inl ⟨i, hi⟩)) (hv.part hi) (hk.part hi))
      refine ⟨n + 1, fun h1 ha hnx => ?_⟩
      rw [copyRec]
      have hv1 : Valid h1 (.slice l off len cap) := hv.agree ha hnx
      obtain ⟨h2, h3, h4⟩ := foldlM_ok (P := Base h1) (f := copyElem (copyRec order n) l off h1.next) (List.range len) (h1.alloc (.arr (List.replicate cap (.scalar 0)))).1
        (.alloc _) (fun i hi b hb => by
          have hi := hsel i (List.mem_range.mp hi)
          have hl1 : l < h1.next := hv1.used l (.here _ (by simp [Val.locs]))
          have e : b.elem l (off + i) = h.elem l (off + i) := by
            rw [Heap.elem, Heap.elem, hb.old l hl1, ha l (.here _ (by simp [Val.locs]))]
          have hag : Agree h b (h.elem l (off + i)) := by
            have h5 := ha.part hi
            exact h5.trans (hb.agree ((hv.part hi).agree h5 hnx))
          have hnb : h.next ≤ b.next := Nat.le_trans hnx (Nat.le_of_lt hb.next)
          obtain ⟨r, hr⟩ := hn i (by assumption) b hag hnb
          refine ⟨setElem r.1 h1.next i r.2, ?_, ?_⟩
          · rw [copyElem, e, hr]; rfl
          · exact (hb.copied_part (copyRec_copied ho n _ _ r.1 r.2 ((hv.part hi).agree hag hnb) hr)).setElem _ _)
      refine ⟨(h2, .slice h1.next 0 len cap), ?_⟩
      simp only [Heap.alloc] at h3 ⊢
      rw [h3]
      rfl
    | map l =>
      have hkeys := hk [] l rfl
      obtain ⟨n, hn⟩ := common_bound (P := fun k n => ∀ u, (h.entries l).get k = some u → Ends order h u n)
        (fun _ _ _ hnm hx u hu => (hx u hu).le hnm) (h.entries l).keys (fun k hkk => by
          cases hg : (h.entries l).get k with
          | none => exact ⟨0, by simp⟩
          | some u =>
            have hs : (Val.map l).sel h (.key k) = some u := hg
            obtain ⟨n, hn⟩ := ih _ (.inr (.inr ⟨k, hs⟩)) (hv.part hs) (hk.part hs)
            exact ⟨n, fun u' hu' => by cases hu'; exact hn⟩)
      refine ⟨n + 1, fun h1 ha hnx => ?_⟩
      rw [copyRec]
      have hv1 : Valid h1 (.map l) := hv.agree ha hnx
      have he1 : h1.entries l = h.entries l := by rw [Heap.entries, Heap.entries, ha l (.here _ (by simp [Val.locs]))]
      obtain ⟨h2, h3, h4⟩ := foldlM_ok (P := Base h1) (f := copyEntry (copyRec order n) l h1.next) (order h1 l) (h1.alloc (.dict [])).1
        (.alloc _) (fun k hmem b hb => by
          have hmem : k ∈ (h.entries l).keys := by rw [← he1]; exact (ho h1 l).subset hmem
          have hl1 : l < h1.next := hv1.used l (.here _ (by simp [Val.locs]))
          have e : b.entries l = h.entries l := by
            rw [← he1, Heap.entries, Heap.entries, hb.old l hl1]
          obtain ⟨u, hu⟩ : ∃ u, (h.entries l).get k = some u := by
            cases hg : (h.entries l).get k with
            | none => exact absurd hg ((GoMap.mem_keys _ _).mp hmem)
            | some u => exact ⟨u, rfl⟩
          have hs : (Val.map l).sel h (.key k) = some u := hu
          have hag : Agree h b u := by
            have h5 := ha.part hs
            exact h5.trans (hb.agree ((hv.part hs).agree h5 hnx))
          have hnb : h.next ≤ b.next := Nat.le_trans hnx (Nat.le_of_lt hb.next)
          obtain ⟨r, hr⟩ := hn k hmem u hu b hag hnb
          have hb2 := hb.copied_part (copyRec_copied ho n _ _ r.1 r.2 ((hv.part hs).agree hag hnb) hr)
          refine ⟨setKey r.1 h1.next k r.2, ?_, hb2.put _⟩
          rw [copyEntry, if_neg (hkeys _ hmem).2, e, hu]
          simp only [hr, bind, Except.bind, if_neg (hkeys _ hmem).1]
          rfl)
      refine ⟨(h2, .map h1.next), ?_⟩
      simp only [Heap.alloc] at h3 ⊢
      rw [h3]
      rfl
    | _ => exact ⟨1, fun h1 _ _ => ⟨_, by rw [copyRec] <;> simp⟩⟩

/-! ## A sufficient condition -/

/-- Trees of interfaces, slices, maps and scalars, as the JSON decoder makes them, up to some depth. -/
def jsonLike : Nat → Heap → Val → Bool
  | 0, _, _ => false
  | n + 1, h, v =>
    match v with
    | .inter v => jsonLike n h v
    | .slice l _ len cap => decide (len ≤ cap) && decide (l < h.next) &&
      match h.objs l with
      | .arr vs => vs.all (jsonLike n h)
      | _ => false
    | .map l => decide (l < h.next) &&
      match h.objs l with
      | .dict m => m.all fun e => decide (e.1 ≠ .nilInterface ∧ e.1 ≠ .nan) && jsonLike n h e.2
      | _ => false
    | .ptr _ | .fields _ _ => false
    | _ => true

theorem jsonLike_part {n : Nat} {h : Heap} {v w : Val} {s : Sel} (hj : jsonLike (n + 1) h v = true) (hs : v.sel h s = some w) :
    (∃ m, m ≤ n ∧ jsonLike m h w = true) ∨ w = .scalar 0 := by
  unfold Val.sel at hs
  split at hs
  · cases hs; exact .inl ⟨n, Nat.le_refl _, by simpa [jsonLike] using hj⟩
  · split at hs
    · cases hs
      simp only [jsonLike, Bool.and_eq_true] at hj
      unfold Heap.elem
      split at hj
      · rename_i vs e
        simp only [e]
        generalize hi : (_ + _ : Nat) = i
        cases hx : vs[i]? with
        | none => right; simp [List.getD, hx]
        | some u =>
          left
          refine ⟨n, Nat.le_refl _, ?_⟩
          simp only [List.getD, hx, Option.getD_some]
          exact List.all_eq_true.mp hj.2 u (List.mem_of_getElem? hx)
      · simp at hj
    · cases hs
  · simp only [jsonLike, Bool.and_eq_true] at hj
    unfold Heap.entries at hs
    split at hj
    · rename_i m e
      simp only [e] at hs
      have := List.all_eq_true.mp hj.2 _ (get_mem hs)
      simp only [Bool.and_eq_true] at this
      exact .inl ⟨n, Nat.le_refl _, this.2⟩
    · simp at hj
  · simp [jsonLike] at hj
  · simp [jsonLike] at hj
  · simp [jsonLike] at hj
  · cases hs

theorem walk_scalar {h : Heap} {n : Nat} {p : List Sel} {w : Val} (hw : walk h (.scalar n) p = some w) : w = .scalar n := by
  cases p with
  | nil => simp only [walk, Option.some.injEq] at hw; exact hw.symm
  | cons s p => simp only [walk, Option.bind_eq_some_iff] at hw; obtain ⟨u, hu, _⟩ := hw; simp [Val.sel] at hu

theorem jsonLike_walk {h : Heap} {w : Val} : ∀ (p : List Sel) (n : Nat) (v : Val), jsonLike n h v = true →
    walk h v p = some w → (∃ m, jsonLike m h w = true) ∨ w = .scalar 0 := by
  intro p
  induction p with
  | nil => intro n v hj hw; simp only [walk, Option.some.injEq] at hw; subst hw; exact .inl ⟨n, hj⟩
  | cons s p ih =>
    intro n v hj hw
    simp only [walk, Option.bind_eq_some_iff] at hw
    obtain ⟨u, hu, hw⟩ := hw
    cases n with
    | zero => simp [jsonLike] at hj
    | succ n =>
      rcases jsonLike_part hj hu with ⟨m, _, hm⟩ | rfl
      · exact ih m u hm hw
      · exact .inr (walk_scalar hw)

/-- The addresses in such a value are in use, and what is there is such a value. -/
theorem jsonLike_locs {h : Heap} {l : Loc} : ∀ (n : Nat) (v : Val), jsonLike n h v = true → l ∈ v.locs →
    l < h.next ∧ ∀ x ∈ (h.objs l).locs, ∃ m u, jsonLike m h u = true ∧ x ∈ u.locs := by
  intro n
  induction n with
  | zero => intro v hj; simp [jsonLike] at hj
  | succ n ih =>
    intro v hj hl
    cases v with
    | inter u => exact ih u (by simpa [jsonLike] using hj) hl
    | slice l' off len cap =>
      simp only [Val.locs, List.mem_singleton] at hl; subst hl
      simp only [jsonLike, Bool.and_eq_true, decide_eq_true_eq] at hj
      refine ⟨hj.1.2, ?_⟩
      have hj2 := hj.2
      split at hj2
      · rename_i vs e
        rw [e]
        intro x hx
        simp only [Obj.locs, List.mem_flatMap] at hx
        obtain ⟨u, hu, hx⟩ := hx
        exact ⟨n, u, List.all_eq_true.mp hj2 u hu, hx⟩
      · cases hj2
    | map l' =>
      simp only [Val.locs, List.mem_singleton] at hl; subst hl
      simp only [jsonLike, Bool.and_eq_true, decide_eq_true_eq] at hj
      refine ⟨hj.1, ?_⟩
      have hj2 := hj.2
      split at hj2
      · rename_i vs e
        rw [e]
        intro x hx
        simp only [Obj.locs, List.mem_flatMap] at hx
        obtain ⟨u, hu, hx⟩ := hx
        have := List.all_eq_true.mp hj2 u hu
        simp only [Bool.and_eq_true] at this
        exact ⟨n, u.2, this.2, hx⟩
      · cases hj2
    | ptr _ => simp [jsonLike] at hj
    | fields _ _ => simp [jsonLike] at hj
    | _ => simp [Val.locs] at hl

theorem jsonLike_reach {n : Nat} {h : Heap} {v : Val} {l : Loc} (hj : jsonLike n h v = true) (hr : Reach h v l) :
    ∃ m u, jsonLike m h u = true ∧ l ∈ u.locs := by
  induction hr with
  | here l hl => exact ⟨n, v, hj, hl⟩
  | there l l' _ hl ih =>
    obtain ⟨m, u, hm, hu⟩ := ih
    exact (jsonLike_locs m u hm hu).2 _ hl

theorem jsonLike_ok {n : Nat} {h : Heap} {v : Val} (hj : jsonLike n h v = true) :
    Valid h v ∧ Deep h v ∧ Keyed h v ∧ NoLoop h v := by
  have hw : ∀ p w, walk h v p = some w → (∃ m, jsonLike m h w = true) ∨ w = .scalar 0 := fun p w => jsonLike_walk p n v hj
  refine ⟨⟨fun l hl => ?_, fun p l off len cap hp => ?_⟩, fun p w hp => ?_, fun p l hp k hk => ?_, ?_⟩
  · obtain ⟨m, u, hm, hu⟩ := jsonLike_reach hj hl
    exact (jsonLike_locs m u hm hu).1
  · rcases hw p _ hp with ⟨m, hm⟩ | hm
    · cases m with
      | zero => simp [jsonLike] at hm
      | succ m => simp only [jsonLike, Bool.and_eq_true, decide_eq_true_eq] at hm; exact hm.1.1
    · cases hm
  · rcases hw p _ hp with ⟨m, hm⟩ | rfl
    · cases m with
      | zero => simp [jsonLike] at hm
      | succ m => cases w <;> simp_all [jsonLike]
    · trivial
  · rcases hw p _ hp with ⟨m, hm⟩ | hm
    · cases m with
      | zero => simp [jsonLike] at hm
      | succ m =>
        simp only [jsonLike, Bool.and_eq_true] at hm
        have hm2 := hm.2
        unfold Heap.entries at hk
        split at hm2
        · rename_i d e
          simp only [e, GoMap.keys, List.mem_map] at hk
          obtain ⟨x, hx, rfl⟩ := hk
          have := List.all_eq_true.mp hm2 x hx
          simp only [Bool.and_eq_true, decide_eq_true_eq] at this
          exact this.1
        · cases hm2
    · cases hm
  · have : ∀ n v, jsonLike n h v = true → NoLoop h v := by
      intro n
      induction n using Nat.strongRecOn with
      | ind n ih =>
        intro v hj
        refine ⟨_, fun w hw => ?_⟩
        cases n with
        | zero => simp [jsonLike] at hj
        | succ n =>
          obtain ⟨s, hs⟩ : ∃ s, v.sel h s = some w := by
            rcases hw with hw | ⟨i, hw⟩ | ⟨k, hw⟩ <;> exact ⟨_, hw⟩
          rcases jsonLike_part hj hs with ⟨m, hm, hjm⟩ | rfl
          · exact ih m (by omega) w hjm
          · refine ⟨_, fun x hx => ?_⟩
            rcases hx with hx | ⟨i, hx⟩ | ⟨k, hx⟩ <;> simp [Val.sel] at hx
    exact this n v hj

end Webwire.Copying
