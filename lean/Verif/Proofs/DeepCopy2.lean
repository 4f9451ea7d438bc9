import Verif.Proofs.DeepCopy

/-!
# Copying: what a copy is
-/

set_option autoImplicit false

namespace Webwire.Copying

/-- What `copyRec` does. -/
structure Copied (h : Heap) (v : Val) (h' : Heap) (v' : Val) : Prop where
  next : h.next ≤ h'.next
  old : ∀ l, l < h.next → h'.objs l = h.objs l
  used : ∀ l, Reach h' v' l → l < h'.next
  reach : ∀ l, Reach h' v' l → Reach h v l ∨ h.next ≤ l
  same : Same h h' v v'
  fresh : Deep h v → ∀ l, Reach h' v' l → h.next ≤ l

theorem Copied.agree {h h' : Heap} {v v' w : Val} (hc : Copied h v h' v') (hw : ∀ l, Reach h w l → l < h.next) :
    Agree h h' w := fun l hl => hc.old l (hw l hl)

section
variable {h0 : Heap} {v : Val}

/-- Memory while the contents of `v` are copied to the new object at `h0.next`. -/
structure Base (h0 h : Heap) : Prop where
  next : h0.next < h.next
  old : ∀ l, l < h0.next → h.objs l = h0.objs l

/-- A finished part of the copy. -/
structure Done (h0 : Heap) (v : Val) (h : Heap) (u : Val) : Prop where
  used : ∀ l, Reach h u l → l < h.next
  reach : ∀ l, Reach h u l → Reach h0 v l ∨ h0.next < l
  fresh : Deep h0 v → ∀ l, Reach h u l → h0.next < l

theorem Done.agree {h h' : Heap} {u : Val} (hd : Done h0 v h u) (ha : Agree h h' u) (hn : h.next ≤ h'.next) :
    Done h0 v h' u :=
  ⟨fun l hl => Nat.lt_of_lt_of_le (hd.used l (ha.reach.mp hl)) hn, fun l hl => hd.reach l (ha.reach.mp hl),
    fun hx l hl => hd.fresh hx l (ha.reach.mp hl)⟩

theorem Done.ne {h : Heap} {u : Val} (hd : Done h0 v h u) (hv : Valid h0 v) {l : Loc} (hl : Reach h u l) : l ≠ h0.next := by
  rintro rfl
  rcases hd.reach _ hl with hr | hr
  · exact Nat.lt_irrefl _ (hv.used _ hr)
  · exact Nat.lt_irrefl _ hr

theorem Done.put {h : Heap} {u : Val} (hd : Done h0 v h u) (hv : Valid h0 v) (o : Obj) : Agree h (h.put h0.next o) u :=
  fun l hl => by simp [Heap.put, hd.ne hv hl]

theorem Base.alloc (o : Obj) : Base h0 (h0.alloc o).1 :=
  ⟨Nat.lt_succ_self _, fun l hl => by simp [Heap.alloc, Nat.ne_of_lt hl]⟩

theorem Base.put {h : Heap} (hb : Base h0 h) (o : Obj) : Base h0 (h.put h0.next o) :=
  ⟨hb.next, fun l hl => by
    rw [← hb.old l hl]
    simp [Heap.put, Nat.ne_of_lt hl]⟩

theorem Base.agree {h : Heap} (hb : Base h0 h) {u : Val} (hu : Valid h0 u) : Agree h0 h u := fun l hl => hb.old l (hu.used l hl)

/-- Copying a part. -/
theorem Base.part {h h2 : Heap} {u u2 : Val} {s : Sel} (hb : Base h0 h) (hv : Valid h0 v) (hs : v.sel h0 s = some u)
    (hc : Copied h u h2 u2) : Base h0 h2 ∧ h2.objs h0.next = h.objs h0.next ∧ Done h0 v h2 u2 ∧ Same h0 h2 u u2 ∧
      ∀ w, Done h0 v h w → Agree h h2 w := by
  have hu := hv.part hs
  have hag := hb.agree hu
  refine ⟨⟨Nat.lt_of_lt_of_le hb.next hc.next, fun l hl => ?_⟩, hc.old _ hb.next, ⟨hc.used, fun l hl => ?_, fun hd l hl => ?_⟩,
    hag.same.trans hc.same, fun w hw => hc.agree hw.used⟩
  · rw [hc.old l (Nat.lt_trans hl hb.next), hb.old l hl]
  · rcases hc.reach l hl with hr | hr
    · exact .inl (.sel hs (hag.reach.mp hr))
    · exact .inr (Nat.lt_of_lt_of_le hb.next hr)
  · exact Nat.lt_of_lt_of_le hb.next (hc.fresh ((hd.part hs).agree hag) l hl)

/-- What is reached from an object is the object or reached from what it contains. -/
theorem Reach.split {h : Heap} {u : Val} {l x : Loc} {vs : List Val} (hr : Reach h u x) (hu : u.locs = [l])
    (ho : ∀ y ∈ (h.objs l).locs, ∃ w ∈ vs, y ∈ w.locs) : x = l ∨ ∃ w ∈ vs, Reach h w x := by
  induction hr with
  | here y hy => rw [hu] at hy; simp at hy; exact .inl hy
  | there y z _ hz ih =>
    rcases ih with rfl | ⟨w, hw, hr⟩
    · obtain ⟨w, hw, hy⟩ := ho z hz
      exact .inr ⟨w, hw, .here _ hy⟩
    · exact .inr ⟨w, hw, .there _ _ hr hz⟩

/-- Putting the copy together. -/
theorem Base.copied {h : Heap} {u : Val} {vs : List Val} (hb : Base h0 h) (hu : u.locs = [h0.next])
    (ho : ∀ y ∈ (h.objs h0.next).locs, ∃ w ∈ vs, y ∈ w.locs) (hd : ∀ w ∈ vs, Done h0 v h w) (hs : Same h0 h v u) :
    Copied h0 v h u where
  next := Nat.le_of_lt hb.next
  old := hb.old
  used l hl := by
    rcases hl.split hu ho with rfl | ⟨w, hw, hr⟩
    · exact hb.next
    · exact (hd w hw).used l hr
  reach l hl := by
    rcases hl.split hu ho with rfl | ⟨w, hw, hr⟩
    · exact .inr (Nat.le_refl _)
    · exact ((hd w hw).reach l hr).imp_right Nat.le_of_lt
  same := hs
  fresh hx l hl := by
    rcases hl.split hu ho with rfl | ⟨w, hw, hr⟩
    · exact Nat.le_refl _
    · exact Nat.le_of_lt ((hd w hw).fresh hx l hr)

end

/-! ## Slices -/

/-- After `j` elements. -/
structure SliceInv (h0 : Heap) (v : Val) (l off len cap j : Nat) (h : Heap) : Prop where
  base : Base h0 h
  arr : ∃ vs, h.objs h0.next = .arr vs ∧ vs.length = cap ∧ (∀ w ∈ vs, Done h0 v h w) ∧
    ∀ i, i < j → i < len → ∃ w, vs[i]? = some w ∧ Same h0 h (h0.elem l (off + i)) w

theorem Done.zero {h0 h : Heap} {v : Val} : Done h0 v h (.scalar 0) := by
  have : ∀ l, ¬ Reach h (.scalar 0) l := by
    intro l hl
    induction hl with
    | here l hl => simp [Val.locs] at hl
    | there _ _ _ _ ih => exact ih
  exact ⟨fun l hl => absurd hl (this l), fun l hl => absurd hl (this l), fun _ l hl => absurd hl (this l)⟩

theorem SliceInv.step {h0 h h2 : Heap} {l off len cap j : Nat} {u2 : Val} (hv : Valid h0 (.slice l off len cap)) (hj : j < len)
    (hi : SliceInv h0 (.slice l off len cap) l off len cap j h) (hc : Copied h (h.elem l (off + j)) h2 u2) :
    SliceInv h0 (.slice l off len cap) l off len cap (j + 1) (setElem h2 h0.next j u2) := by
  obtain ⟨hb, vs, h1, hlen, hd, hsame⟩ := hi
  have hl : l < h0.next := hv.used l (.here _ (by simp [Val.locs]))
  have hsel : (Val.slice l off len cap).sel h0 (.elem j) = some (h0.elem l (off + j)) := by simp [Val.sel, hj]
  have he : h.elem l (off + j) = h0.elem l (off + j) := by rw [Heap.elem, Heap.elem, hb.old l hl]
  rw [he] at hc
  obtain ⟨hb2, ho2, hd2, hs2, hag⟩ := hb.part hv hsel hc
  have hset : setElem h2 h0.next j u2 = h2.put h0.next (.arr (vs.set j u2)) := by simp only [setElem, ho2, h1]
  rw [hset]
  have hcap : len ≤ cap := hv.slices [] l off len cap rfl
  have hdone : ∀ w ∈ vs, Done h0 (.slice l off len cap) (h2.put h0.next (.arr (vs.set j u2))) w ∧
      Agree h (h2.put h0.next (.arr (vs.set j u2))) w := by
    intro w hw
    have h3 := (hd w hw).agree (hag w (hd w hw)) hc.next
    have h4 := h3.put hv (.arr (vs.set j u2))
    exact ⟨h3.agree h4 (Nat.le_refl _), (hag w (hd w hw)).trans h4⟩
  refine ⟨hb2.put _, vs.set j u2, by simp [Heap.put], by simpa using hlen, fun w hw => ?_, fun i hij hil => ?_⟩
  · rcases List.mem_or_eq_of_mem_set hw with hw | rfl
    · exact (hdone w hw).1
    · exact hd2.agree (hd2.put hv _) (Nat.le_refl _)
  · by_cases e : i = j
    · subst e
      exact ⟨u2, by simp [List.getElem?_set]; omega, hs2.trans (hd2.put hv _).same⟩
    · obtain ⟨w, hw, hs⟩ := hsame i (by omega) hil
      refine ⟨w, by rw [List.getElem?_set_ne (Ne.symm e)]; exact hw, ?_⟩
      exact hs.trans (hdone w (List.mem_of_getElem? hw)).2.same

/-- A loop. -/
theorem foldlM_inv {α β : Type} {f : β → α → Go β} {P : Nat → β → Prop} :
    ∀ (xs : List α) (j : Nat) (b b' : β), P j b → xs.foldlM f b = .ok b' →
      (∀ i (hi : i < xs.length) b b', P (j + i) b → f b xs[i] = .ok b' → P (j + i + 1) b') → P (j + xs.length) b' := by
  intro xs
  induction xs with
  | nil => intro j b b' hp hf _; simp only [List.foldlM, pure, Except.pure] at hf; cases hf; exact hp
  | cons x xs ih =>
    intro j b b' hp hf hst
    simp only [List.foldlM_cons] at hf
    cases hx : f b x with
    | error e => rw [hx] at hf; simp [bind, Except.bind] at hf
    | ok b1 =>
      rw [hx] at hf
      simp only [bind, Except.bind] at hf
      have h1 := ih (j + 1) b1 b' (hst 0 (by simp) b b1 hp hx) hf (fun i hi b b' hp hb => by
        have := hst (i + 1) (by simpa using hi) b b' (by rw [show j + (i + 1) = j + 1 + i by omega]; exact hp) hb
        rw [show j + (i + 1) + 1 = j + 1 + i + 1 by omega] at this
        exact this)
      rw [show j + (x :: xs).length = j + 1 + xs.length by simp; omega]
      exact h1

/-! ## Maps -/

/-- After some keys. -/
structure MapInv (h0 : Heap) (v : Val) (l : Nat) (ks : List Key) (h : Heap) : Prop where
  base : Base h0 h
  dict : ∃ m, h.objs h0.next = .dict m ∧ (∀ e ∈ m, Done h0 v h e.2) ∧ (∀ k, k ∉ ks → m.get k = none) ∧
    ∀ k ∈ ks, ∃ u w, (h0.entries l).get k = some u ∧ m.get k = some w ∧ Same h0 h u w

theorem mem_set {m : GoMap Key Val} {k : Key} {v : Val} {e : Key × Val} (he : e ∈ m.set k v) : e = (k, v) ∨ e ∈ m := by
  simp only [GoMap.set, GoMap.del, List.mem_cons, List.mem_filter] at he
  exact he.imp_right And.left

theorem MapInv.step {h0 h h2 : Heap} {l : Nat} {u u2 : Val} {ks : List Key} {k : Key} (hv : Valid h0 (.map l))
    (hi : MapInv h0 (.map l) l ks h) (hu : (h.entries l).get k = some u) (hc : Copied h u h2 u2) :
    MapInv h0 (.map l) l (k :: ks) (setKey h2 h0.next k u2) := by
  obtain ⟨hb, m, h1, hd, hno, hsame⟩ := hi
  have hl : l < h0.next := hv.used l (.here _ (by simp [Val.locs]))
  have he : h.entries l = h0.entries l := by rw [Heap.entries, Heap.entries, hb.old l hl]
  rw [he] at hu
  have hsel : (Val.map l).sel h0 (.key k) = some u := hu
  obtain ⟨hb2, ho2, hd2, hs2, hag⟩ := hb.part hv hsel hc
  have hset : setKey h2 h0.next k u2 = h2.put h0.next (.dict (m.set k u2)) := by
    simp only [setKey, Heap.entries, ho2, h1]
  rw [hset]
  have hdone : ∀ e ∈ m, Done h0 (.map l) (h2.put h0.next (.dict (m.set k u2))) e.2 ∧
      Agree h (h2.put h0.next (.dict (m.set k u2))) e.2 := by
    intro e hw
    have h3 := (hd e hw).agree (hag _ (hd e hw)) hc.next
    have h4 := h3.put hv (.dict (m.set k u2))
    exact ⟨h3.agree h4 (Nat.le_refl _), (hag _ (hd e hw)).trans h4⟩
  refine ⟨hb2.put _, m.set k u2, by simp [Heap.put], fun e he => ?_, fun k' hk' => ?_, fun k' hk' => ?_⟩
  · rcases mem_set he with rfl | he
    · exact hd2.agree (hd2.put hv _) (Nat.le_refl _)
    · exact (hdone e he).1
  · simp only [List.mem_cons, not_or] at hk'
    rw [GoMap.get_set_ne _ _ (Ne.symm hk'.1)]
    exact hno k' hk'.2
  · by_cases e : k = k'
    · subst e
      exact ⟨u, u2, hu, by simp [GoMap.get_set], hs2.trans (hd2.put hv _).same⟩
    · have hk2 : k' ∈ ks := by
        rcases List.mem_cons.mp hk' with e' | hk'
        · exact absurd e'.symm e
        · exact hk'
      obtain ⟨u', w, h3, h4, h5⟩ := hsame k' hk2
      refine ⟨u', w, h3, by rw [GoMap.get_set_ne _ _ e]; exact h4, ?_⟩
      exact h5.trans (hdone _ (get_mem h4)).2.same

/-! ## All of it -/

theorem bind_ok {α β : Type} {a : Go α} {f : α → Go β} {b : β} (h : (a >>= f) = .ok b) : ∃ x, a = .ok x ∧ f x = .ok b := by
  cases a with
  | error e => simp [bind, Except.bind] at h
  | ok x => exact ⟨x, rfl, h⟩

theorem Copied.self {h : Heap} {v : Val} (hv : Valid h v) (hp : Deep h v → ∀ l, ¬ Reach h v l) : Copied h v h v where
  next := Nat.le_refl _
  old _ _ := rfl
  used := hv.used
  reach _ hl := .inl hl
  same := .refl
  fresh hd l hl := absurd hl (hp hd l)

theorem not_reach {h : Heap} {v : Val} (hv : v.locs = []) (l : Loc) : ¬ Reach h v l := by
  intro hl
  induction hl with
  | here l hl => rw [hv] at hl; cases hl
  | there _ _ _ _ ih => exact ih

theorem Reach.inter {h : Heap} {v : Val} {l : Loc} : Reach h (.inter v) l ↔ Reach h v l := by
  constructor
  · intro hr
    induction hr with
    | here l hl => exact .here _ hl
    | there _ _ _ hl ih => exact .there _ _ ih hl
  · exact fun hr => .sel (s := .dyn) rfl hr

theorem copyRec_copied {order : Heap → Loc → List Key} (ho : Lists order) (n : Nat) : ∀ (h : Heap) (v : Val) (h' : Heap) (v' : Val),
    Valid h v → copyRec order n h v = .ok (h', v') → Copied h v h' v' := by
  induction n with
  | zero => intro h v h' v' _ he; simp [copyRec, goPanic] at he
  | succ n ih =>
    intro h v h' v' hv he
    cases v with
    | scalar k => simp only [copyRec] at he; cases he; exact .self hv fun _ => not_reach rfl
    | nilInter => simp only [copyRec] at he; cases he; exact .self hv fun _ => not_reach rfl
    | nilSlice => simp only [copyRec] at he; cases he; exact .self hv fun _ => not_reach rfl
    | nilMap => simp only [copyRec] at he; cases he; exact .self hv fun _ => not_reach rfl
    | nilPtr => simp only [copyRec] at he; cases he; exact .self hv fun _ => not_reach rfl
    | ptr l => simp only [copyRec] at he; cases he; exact .self hv fun hd => absurd (hd [] _ rfl) (by simp)
    | fields a b =>
      simp only [copyRec] at he; cases he
      refine .self hv fun hd => not_reach ?_
      have := hd [] _ rfl
      simp only [Val.locs, this.1, this.2, List.append_nil]
    | inter u =>
      simp only [copyRec] at he
      cases hc : copyRec order n h u with
      | error e => rw [hc] at he; simp [bind, Except.bind] at he
      | ok r =>
        obtain ⟨h1, u1⟩ := r
        rw [hc] at he
        simp only [bind, Except.bind, pure, Except.pure] at he
        cases he
        have := ih h u _ u1 (hv.part (s := .dyn) rfl) hc
        refine ⟨this.next, this.old, fun l hl => this.used l (Reach.inter.mp hl), fun l hl =>
          (this.reach l (Reach.inter.mp hl)).imp_left Reach.inter.mpr, fun p => ?_, fun hd l hl =>
          this.fresh (hd.part (s := .dyn) rfl) l (Reach.inter.mp hl)⟩
        cases p with
        | nil => rfl
        | cons s p =>
          rw [look_cons, look_cons]
          cases s <;> simp only [Val.sel, Option.bind_none, Option.bind_some]
          exact this.same p
    | slice l off len cap =>
      simp only [copyRec] at he
      obtain ⟨h2, hf, he⟩ := bind_ok he
      simp only [pure, Except.pure] at he
      cases he
      have hinit : SliceInv h (.slice l off len cap) l off len cap 0 (h.alloc (.arr (List.replicate cap (.scalar 0)))).1 := by
        refine ⟨.alloc _, List.replicate cap (.scalar 0), by simp [Heap.alloc], by simp, fun w hw => ?_, by simp⟩
        rw [List.eq_of_mem_replicate hw]
        exact .zero
      have hend := foldlM_inv (P := SliceInv h (.slice l off len cap) l off len cap) (List.range len) 0 _ _ hinit hf
        (fun i hi b b' hp hx => by
          simp only [List.length_range] at hi
          simp only [List.getElem_range, Nat.zero_add] at hp hx ⊢
          obtain ⟨⟨h3, u3⟩, h4, h5⟩ := bind_ok hx
          simp only [pure, Except.pure] at h5
          cases h5
          have hl : l < h.next := hv.used l (.here _ (by simp [Val.locs]))
          have hsel : (Val.slice l off len cap).sel h (.elem i) = some (h.elem l (off + i)) := by simp [Val.sel, hi]
          have hval : Valid b (b.elem l (off + i)) := by
            have : b.elem l (off + i) = h.elem l (off + i) := by rw [Heap.elem, Heap.elem, hp.base.old l hl]
            rw [this]
            have hu := hv.part hsel
            exact hu.agree (hp.base.agree hu) (Nat.le_of_lt hp.base.next)
          exact hp.step hv hi (ih _ _ _ _ hval h4))
      simp only [List.length_range, Nat.zero_add] at hend
      obtain ⟨hb2, vs, h3, h4, h5, h6⟩ := hend
      refine hb2.copied (vs := vs) rfl (fun y hy => ?_) h5 (fun p => ?_)
      · rw [h3] at hy; simpa [Obj.locs] using hy
      · cases p with
        | nil => rfl
        | cons s p =>
          rw [look_cons, look_cons]
          cases s <;> simp only [Val.sel, Option.bind_none]
          rename_i i
          by_cases hi : i < len
          · simp only [hi, if_true, Option.bind_some]
            obtain ⟨w, hw, hs⟩ := h6 i hi hi
            have : h'.elem h.next (0 + i) = w := by simp [Heap.elem, h3, List.getD, hw]
            show look h' (h'.elem h.next (0 + i)) p = _
            rw [this]
            exact hs p
          · simp [hi]
    | map l =>
      simp only [copyRec] at he
      obtain ⟨h2, hf, he⟩ := bind_ok he
      simp only [pure, Except.pure] at he
      cases he
      have hinit : MapInv h (.map l) l ((order h l).take 0).reverse (h.alloc (.dict [])).1 := by
        exact ⟨.alloc _, [], by simp [Heap.alloc], by simp, by simp [GoMap.get], by simp⟩
      have hend := foldlM_inv (P := fun j => MapInv h (.map l) l ((order h l).take j).reverse) (order h l) 0 _ _ hinit hf
        (fun i hi b b' hp hx => by
          simp only [Nat.zero_add] at hp ⊢
          have htake : ((order h l).take (i + 1)).reverse = (order h l)[i] :: ((order h l).take i).reverse := by
            rw [List.take_succ_eq_append_getElem hi]; simp
          rw [htake]
          generalize hk : (order h l)[i] = k at hx
          have hg : ∃ u h3 u3, (b.entries l).get k = some u ∧ copyRec order n b u = .ok (h3, u3) ∧
              b' = setKey h3 h.next k u3 := by
            unfold copyEntry at hx
            split at hx
            · simp [goPanic] at hx
            · rename_i u hu
              split at hu
              · cases hu
              · obtain ⟨⟨h3, u3⟩, h4, h5⟩ := bind_ok hx
                split at h5
                · simp [goPanic] at h5
                · simp only [pure, Except.pure, Except.ok.injEq] at h5
                  exact ⟨u, h3, u3, hu, h4, h5.symm⟩
          obtain ⟨u, h3, u3, h4, h5, rfl⟩ := hg
          have hl : l < h.next := hv.used l (.here _ (by simp [Val.locs]))
          have hval : Valid b u := by
            have : b.entries l = h.entries l := by rw [Heap.entries, Heap.entries, hp.base.old l hl]
            have hu := hv.part (s := .key k) (w := u) (by rw [this] at h4; exact h4)
            exact hu.agree (hp.base.agree hu) (Nat.le_of_lt hp.base.next)
          exact hp.step hv h4 (ih _ _ _ _ hval h5))
      simp only [Nat.zero_add, List.take_length] at hend
      obtain ⟨hb2, m, h3, h4, h5, h6⟩ := hend
      refine hb2.copied (vs := m.map (·.2)) rfl (fun y hy => ?_) (fun w hw => ?_) (fun p => ?_)
      · rw [h3] at hy
        simp only [Obj.locs, List.mem_flatMap] at hy
        obtain ⟨e, he, hy⟩ := hy
        exact ⟨e.2, List.mem_map_of_mem he, hy⟩
      · obtain ⟨e, he, rfl⟩ := List.mem_map.mp hw
        exact h4 e he
      · cases p with
        | nil => rfl
        | cons s p =>
          rw [look_cons, look_cons]
          cases s <;> simp only [Val.sel, Option.bind_none]
          rename_i k
          have : h'.entries h.next = m := by simp [Heap.entries, h3]
          show ((h'.entries h.next).get k).bind _ = _
          rw [this]
          by_cases hk : k ∈ order h l
          · obtain ⟨u, w, h7, h8, h9⟩ := h6 k (by simpa using hk)
            rw [h7, h8]
            exact h9 p
          · rw [h5 k (by simpa using hk)]
            have : (h.entries l).get k = none := by
              by_contra hx
              exact hk ((ho h l).symm.subset ((GoMap.mem_keys _ _).mpr hx))
            rw [this]; rfl

end Webwire.Copying
