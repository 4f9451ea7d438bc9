import Verif.Proofs.DeepCopy3

/-!
# C43: sessions handed out are isolated copies

`Connection.Session` is `clone`, `Connection.SessionInfo` is `value`. The depth of the recursion is bounded by the memory
for the stack; a call that works does so with any larger stack.
-/

set_option autoImplicit false

namespace Webwire.Copying

variable {order : Heap → Loc → List Key}

/-- C43: given a large enough stack, `Connection.Session` returns a deep copy of every session. -/
def C43_full : Prop :=
  ∀ (order : Heap → Loc → List Key), Lists order → ∀ (h : Heap) (s : Session),
    (∀ data, s.info = some data → data.isMap ∧ Valid h data) →
    ∃ n, ∀ depth, n ≤ depth → ∃ h' s', clone order depth h (some s) = .ok (h', some s') ∧
      SessionOut (HandedOut h h') s s'

/-! ## What holds -/

theorem copied_handedOut {h h' : Heap} {v v' : Val} (hv : Valid h v) (hd : Deep h v) (hc : Copied h v h' v') :
    HandedOut h h' v v' := by
  have ha : Agree h h' v := hc.agree hv.used
  refine ⟨hc.same, ha.same, isolated_of_disjoint (fun l h1 h2 => ?_) (fun l hl => ?_), isolated_of_disjoint (fun l h1 h2 => ?_) hc.used⟩
  · exact Nat.lt_irrefl _ (Nat.lt_of_lt_of_le (hv.used l (ha.reach.mp h2)) (hc.fresh hd l h1))
  · exact Nat.lt_of_lt_of_le (hv.used l (ha.reach.mp hl)) hc.next
  · exact Nat.lt_irrefl _ (Nat.lt_of_lt_of_le (hv.used l (ha.reach.mp h1)) (hc.fresh hd l h2))

theorem copyInfo_eq (depth : Nat) (h : Heap) (data : Val) : copyInfo order depth h data = copyRec order depth h data := by
  simp only [copyInfo, deepCopy]
  cases hc : copyRec order depth h data with
  | error e => rfl
  | ok x => rfl

theorem clone_some {h : Heap} {s : Session} {depth : Nat} {r : Heap × Option Session}
    (hr : clone order depth h (some s) = .ok r) :
    (s.info = none ∧ r = (h, some s)) ∨
      ∃ data h' data', s.info = some data ∧ copyRec order depth h data = .ok (h', data') ∧
        r = (h', some { s with info := some data' }) := by
  simp only [clone] at hr
  split at hr
  · rename_i hn
    cases hr
    exact .inl ⟨hn, by rw [← hn]⟩
  · rename_i data hd
    rw [copyInfo_eq] at hr
    cases hc : copyRec order depth h data with
    | error e => rw [hc] at hr; cases hr
    | ok x => rw [hc] at hr; cases hr; exact .inr ⟨data, x.1, x.2, hd, hc, rfl⟩

theorem clone_ok {h : Heap} {s : Session} {depth : Nat} {data : Val} {x : Heap × Val} (hd : s.info = some data)
    (hc : copyRec order depth h data = .ok x) :
    clone order depth h (some s) = .ok (x.1, some { s with info := some x.2 }) := by
  simp only [clone, hd, copyInfo_eq, hc]
  rfl

/-- C43 for `Connection.Session`, for information of maps, slices, interfaces and scalars (pointers, and structs and arrays
that refer to something, are excluded by `Deep`), not containing itself, without nil and NaN as keys. -/
theorem C43_partial (ho : Lists order) (h : Heap) (s : Session)
    (hs : ∀ data, s.info = some data → Valid h data ∧ Deep h data ∧ Keyed h data ∧ NoLoop h data) :
    ∃ n, ∀ depth, n ≤ depth → ∃ h' s', clone order depth h (some s) = .ok (h', some s') ∧
      SessionOut (HandedOut h h') s s' := by
  cases hi : s.info with
  | none =>
    refine ⟨0, fun depth _ => ⟨h, s, ?_, rfl, rfl, rfl, ?_⟩⟩
    · simp only [clone, hi]; rw [← hi]
    · rw [hi]; trivial
  | some data =>
    obtain ⟨hv, hd, hk, hl⟩ := hs data hi
    obtain ⟨n, hn⟩ := copyRec_ends ho hl hv hk
    obtain ⟨r, hr⟩ := hn h (fun _ _ => rfl) (Nat.le_refl _)
    refine ⟨n, fun depth hnd => ⟨r.1, _, clone_ok hi (copyRec_le hnd hr), rfl, rfl, rfl, ?_⟩⟩
    rw [hi]
    exact copied_handedOut hv hd (copyRec_copied ho _ _ _ _ _ hv hr)

/-- C43 for `Connection.SessionInfo`, under the same conditions, for every name of a field: nothing if there is no field
with that name, or else a copy of its value. Fields have interface type. Missing: pointers, information containing itself, and
nil and NaN keys, for which C43 is false. -/
theorem C43_info_partial (ho : Lists order) (h : Heap) (l : Loc) (k : Key) (hv : Valid h (.map l)) (hd : Deep h (.map l))
    (hk : Keyed h (.map l)) (hl : NoLoop h (.map l))
    (hi : ∀ v, walk h (.map l) [.key k] = some v → v = .nilInter ∨ ∃ w, v = .inter w) :
    ∃ n, ∀ depth, n ≤ depth → ∃ h' v', value order depth h (.map l) k = .ok (h', v') ∧
      (walk h (.map l) [.key k] = none → v' = .nilInter) ∧
      (∀ v, walk h (.map l) [.key k] = some v → Same h h' v v') ∧
      Same h h' (.map l) (.map l) ∧ Isolated h' v' (.map l) ∧ Isolated h' (.map l) v' := by
  have hnil : ∀ l, ¬ Reach h .nilInter l := by
    intro l hr
    induction hr with
    | here l hl => simp [Val.locs] at hl
    | there _ _ _ _ ih => exact ih
  have hw : walk h (.map l) [.key k] = (h.entries l).get k := by
    simp only [walk, Val.sel]
    cases (h.entries l).get k <;> rfl
  rw [hw] at hi ⊢
  cases hg : (h.entries l).get k with
  | none =>
    refine ⟨0, fun depth _ => ⟨h, .nilInter, by simp [value, hg], fun _ => rfl, by simp, .refl, ?_, ?_⟩⟩
    · exact isolated_of_disjoint (fun l h1 => absurd h1 (hnil l)) hv.used
    · exact isolated_of_disjoint (fun l _ h2 => hnil l h2) (fun l hr => absurd hr (hnil l))
  | some v =>
    rcases hi v hg with rfl | ⟨w, rfl⟩
    · refine ⟨0, fun depth _ => ⟨h, .nilInter, by simp [value, hg, deepCopy], by simp, ?_, .refl, ?_, ?_⟩⟩
      · intro v hv; cases hv; exact .refl
      · exact isolated_of_disjoint (fun l h1 => absurd h1 (hnil l)) hv.used
      · exact isolated_of_disjoint (fun l _ h2 => hnil l h2) (fun l hr => absurd hr (hnil l))
    · have hs : (Val.map l).sel h (.key k) = some (.inter w) := hg
      have hv' := hv.part hs
      have hl' : NoLoop h (.inter w) := Acc.inv hl (.inr (.inr ⟨k, hs⟩))
      obtain ⟨n, hn⟩ := copyRec_ends ho hl' hv' (hk.part hs)
      obtain ⟨r, hr⟩ := hn h (fun _ _ => rfl) (Nat.le_refl _)
      have hc := copyRec_copied ho _ _ _ _ _ hv' hr
      have ha : Agree h r.1 (.map l) := hc.agree hv.used
      refine ⟨n, fun depth hnd => ⟨r.1, r.2, ?_, by simp, ?_, ha.same, ?_, ?_⟩⟩
      · cases n with
        | zero => simp [copyRec, goPanic] at hr
        | succ n =>
          have hr2 : (do let x ← copyRec order n h w; return (x.1, Val.inter x.2)) = Except.ok r := hr
          cases hx : copyRec order n h w with
          | error e => rw [hx] at hr2; cases hr2
          | ok x =>
            rw [hx] at hr2
            cases hr2
            have := copyRec_le (Nat.le_trans (Nat.le_succ n) hnd) hx
            simp only [value, hg, deepCopy, this]
            rfl
      · intro v hv; cases hv; exact hc.same
      · refine isolated_of_disjoint (fun l' h1 h2 => ?_) fun l' hl => Nat.lt_of_lt_of_le (hv.used l' (ha.reach.mp hl)) hc.next
        exact Nat.lt_irrefl _ (Nat.lt_of_lt_of_le (hv.used l' (ha.reach.mp h2)) (hc.fresh (hd.part hs) l' h1))
      · refine isolated_of_disjoint (fun l' h1 h2 => ?_) hc.used
        exact Nat.lt_irrefl _ (Nat.lt_of_lt_of_le (hv.used l' (ha.reach.mp h1)) (hc.fresh (hd.part hs) l' h2))

/-- For information with pointers and structs too: whenever a copy is returned it is deeply equal to what is stored, and
what is stored is as before. Missing: that the copy is independent of what is stored, which is false for pointers. -/
theorem C43_equal_partial (ho : Lists order) (h h' : Heap) (s s' : Session) (depth : Nat)
    (hs : ∀ data, s.info = some data → Valid h data) (hc : clone order depth h (some s) = .ok (h', some s')) :
    SessionOut (fun data data' => Same h h' data data' ∧ Same h h' data data) s s' := by
  rcases clone_some hc with ⟨hi, hr⟩ | ⟨data, h2, data', hi, hr, he⟩
  · cases hr
    refine ⟨rfl, rfl, rfl, ?_⟩
    simp only [hi]
  · cases he
    refine ⟨rfl, rfl, rfl, ?_⟩
    simp only [hi]
    have := copyRec_copied ho _ _ _ _ _ (hs data hi) hr
    exact ⟨this.same, (this.agree (hs data hi).used).same⟩

/-- No session, none returned. Missing: nothing for this case; the other cases are those of `C43_partial`. -/
theorem C43_none_partial (depth : Nat) (h : Heap) : clone order depth h none = .ok (h, none) := rfl

/-! ## What JSON decodes to -/

/-- `{"a": {"b": 9}, "c": [1, null]}`. -/
def jsonHeap : Heap where
  objs := fun
    | 0 => .dict [(.val 0, .inter (.map 1)), (.val 2, .inter (.slice 2 0 2 4))]
    | 1 => .dict [(.val 1, .inter (.scalar 9))]
    | _ => .arr [.inter (.scalar 1), .nilInter]
  next := 3

def jsonSession : Session := ⟨[1], 5, 6, some (.map 0)⟩

/-- The keys in the order in which they were inserted. -/
def inOrder (h : Heap) (l : Loc) : List Key := (h.entries l).keys

theorem lists_inOrder : Lists inOrder := fun _ _ => .refl _

example : Valid jsonHeap (.map 0) ∧ Deep jsonHeap (.map 0) ∧ Keyed jsonHeap (.map 0) ∧ NoLoop jsonHeap (.map 0) :=
  jsonLike_ok (n := 9) rfl

example : look jsonHeap (.map 0) [.key (.val 2), .dyn, .elem 0, .dyn] = some (.scalar 1) := rfl

/-- The copy of it, and something changed in the copy. -/
example : ∃ h', clone inOrder 9 jsonHeap (some jsonSession) = .ok (h', some ⟨[1], 5, 6, some (.map 3)⟩) ∧
    look h' (.map 3) [.key (.val 2), .dyn, .elem 0, .dyn] = some (.scalar 1) ∧
    look (h'.put 5 (.arr [])) (.map 3) [.key (.val 2), .dyn, .elem 0, .dyn] = none ∧
    look (h'.put 5 (.arr [])) (.map 0) [.key (.val 2), .dyn, .elem 0, .dyn] = some (.scalar 1) := ⟨_, rfl, rfl, rfl, rfl⟩

example : ∃ h', value inOrder 9 jsonHeap (.map 0) (.val 0) = .ok (h', .inter (.map 3)) ∧
    look h' (.inter (.map 3)) [.dyn, .key (.val 1), .dyn] = some (.scalar 9) := ⟨_, rfl, rfl⟩

/-! ## What does not hold -/

/-- A field holds a pointer to a variable with the value 7. -/
def ptrHeap : Heap where
  objs := fun
    | 0 => .dict [(.val 0, .inter (.ptr 1))]
    | _ => .cell (.scalar 7)
  next := 2

def ptrSession : Session := ⟨[1], 5, 6, some (.map 0)⟩

/-- Sets of addresses closed under what the objects refer to. -/
theorem reach_sub {h : Heap} {v : Val} {P : Loc → Prop} (h1 : ∀ l ∈ v.locs, P l) (h2 : ∀ l, P l → ∀ l' ∈ (h.objs l).locs, P l')
    {l : Loc} (hr : Reach h v l) : P l := by
  induction hr with
  | here l hl => exact h1 l hl
  | there l l' _ hl ih => exact h2 l ih l' hl

/-- Values with some property, closed under taking parts. -/
theorem walk_sub {h : Heap} {P : Val → Prop} (hp : ∀ v s w, P v → v.sel h s = some w → P w) :
    ∀ (p : List Sel) (v w : Val), P v → walk h v p = some w → P w := by
  intro p
  induction p with
  | nil => intro v w hv hw; simp only [walk, Option.some.injEq] at hw; exact hw ▸ hv
  | cons s p ih =>
    intro v w hv hw
    simp only [walk, Option.bind_eq_some_iff] at hw
    obtain ⟨u, hu, hw⟩ := hw
    exact ih u w (hp v s u hv hu) hw

/-- A value is valid if what is at the addresses up to `next` refers to those only, and there are no slices. -/
theorem valid_of {h : Heap} {l : Loc} (h0 : l < h.next) (h1 : ∀ l < h.next, ∀ l' ∈ (h.objs l).locs, l' < h.next)
    (P : Val → Prop) (hl : P (.map l)) (hp : ∀ v s w, P v → v.sel h s = some w → P w) (hs : ∀ l off len cap, ¬ P (.slice l off len cap)) :
    Valid h (.map l) :=
  ⟨fun x hx => reach_sub (P := fun x => x < h.next) (by simpa [Val.locs] using h0) h1 hx,
    fun p l' off len cap hw => (hs l' off len cap (walk_sub hp p _ _ hl hw)).elim⟩

theorem ptr_valid : Valid ptrHeap (.map 0) := by
  refine valid_of (by decide) ?_ (fun v => v ∈ [.map 0, .inter (.ptr 1), .ptr 1, .scalar 7]) (by simp) ?_ (by simp)
  · intro l hl l' hl'
    simp only [ptrHeap] at hl ⊢
    match l with
    | 0 => simp [ptrHeap, Obj.locs, Val.locs] at hl'; subst hl'; exact Nat.lt_succ_self 1
    | 1 => simp [ptrHeap, Obj.locs, Val.locs] at hl'
    | l + 2 => exact absurd hl (Nat.not_lt.mpr (Nat.le_add_left 2 l))
  · intro v s w hv hs
    simp only [List.mem_cons, List.not_mem_nil, or_false] at hv ⊢
    rcases hv with rfl | rfl | rfl | rfl <;> cases s <;> simp [Val.sel, Heap.entries, ptrHeap, GoMap.get] at hs
    · exact .inr (.inl hs.2.symm)
    · exact .inr (.inr (.inl hs.symm))
    · exact .inr (.inr (.inr hs.symm))

/-- Whoever got the copy assigns to the variable the pointer points to; it is the variable of the stored session. -/
theorem C43_violated : ¬ C43_full := by
  intro hf
  obtain ⟨n, hn⟩ := hf inOrder lists_inOrder ptrHeap ptrSession (by rintro data ⟨⟩; exact ⟨trivial, ptr_valid⟩)
  obtain ⟨h', s', hc, _, _, _, hi⟩ := hn (n + 9) (by omega)
  have h9 : ∃ h9, copyRec inOrder 9 ptrHeap (.map 0) = .ok (h9, .map 2) ∧ h9.objs 1 = .cell (.scalar 7) ∧
      h9.objs 0 = .dict [(.val 0, .inter (.ptr 1))] ∧ h9.objs 2 = .dict [(.val 0, .inter (.ptr 1))] :=
    ⟨_, rfl, rfl, rfl, rfl⟩
  obtain ⟨h9, hc9, e1, e0, e2⟩ := h9
  have := clone_ok (s := ptrSession) rfl (copyRec_le (m := n + 9) (by omega) hc9)
  rw [this] at hc
  cases hc
  have hi : HandedOut ptrHeap h9 (.map 0) (.map 2) := hi
  have h1 : DoesAll (h9, [.map 2]) (h9, [.inter (.ptr 1), .map 2]) :=
    .step _ _ .start (.take _ _ (.map 2) _ (.key (.val 0)) (by simp) (by simp [Val.sel, Heap.entries, e2, GoMap.get]))
  have h2 : DoesAll (h9, [.map 2]) (h9.put 1 (.cell (.scalar 8)), [.inter (.ptr 1), .map 2]) :=
    .step _ _ h1 (.write _ _ 1 (.cell (.scalar 8)) ⟨.inter (.ptr 1), by simp, by simp [Val.locs]⟩ (by simp [Obj.locs, Val.locs]))
  have h3 := hi.out _ _ h2 [.key (.val 0), .dyn, .deref]
  simp [look, walk, Val.sel, Heap.entries, Heap.put, e0, e1, GoMap.get, Val.obs] at h3

/-- A map that contains itself. -/
def loopHeap : Heap where
  objs := fun _ => .dict [(.val 0, .inter (.map 0))]
  next := 1

theorem loop_valid : Valid loopHeap (.map 0) := by
  refine valid_of (by decide) ?_ (fun v => v ∈ [.map 0, .inter (.map 0)]) (by simp) ?_ (by simp)
  · intro l hl l' hl'
    simp [loopHeap, Obj.locs, Val.locs] at hl' ⊢
    exact hl'
  · intro v s w hv hs
    simp only [List.mem_cons, List.not_mem_nil, or_false] at hv ⊢
    rcases hv with rfl | rfl <;> cases s <;> simp [Val.sel, Heap.entries, loopHeap, GoMap.get] at hs
    · exact .inr hs.2.symm
    · exact .inl hs.symm

theorem loop_diverges (ho : Lists order) (n : Nat) : ∀ (h : Heap), h.objs 0 = .dict [(.val 0, .inter (.map 0))] → 0 < h.next →
    ∃ e, copyRec order n h (.map 0) = .error e ∧ ∃ e, copyRec order n h (.inter (.map 0)) = .error e := by
  induction n with
  | zero => intro h _ _; exact ⟨_, rfl, _, rfl⟩
  | succ n ih =>
    intro h h0 hn
    have hk : order h 0 = [.val 0] := by
      have := ho h 0
      simp only [Heap.entries, h0, GoMap.keys, List.map_cons, List.map_nil] at this
      exact List.perm_singleton.mp this
    obtain ⟨e1, h1, e2, h2⟩ := ih h h0 hn
    have h0' : (h.alloc (.dict [])).1.objs 0 = .dict [(.val 0, .inter (.map 0))] := by
      simp [Heap.alloc, Nat.ne_of_lt hn, h0]
    obtain ⟨_, _, e3, h3⟩ := ih (h.alloc (.dict [])).1 h0' (by simp [Heap.alloc])
    refine ⟨e3, ?_, e1, ?_⟩
    · simp only [copyRec, hk, List.foldlM_cons, copyEntry, Heap.entries, h0', GoMap.get]
      simp only [reduceCtorEq, if_false, if_true, h3]
      rfl
    · simp only [copyRec, h1]
      rfl

/-- `Connection.Session` does not return, whatever the size of the stack, if the information contains itself. -/
theorem C43_loop_violated : ∃ h s data, s.info = some data ∧ data.isMap ∧ Valid h data ∧
    ∀ order, Lists order → ∀ depth, ∃ e, clone order depth h (some s) = .error e := by
  refine ⟨loopHeap, ⟨[1], 5, 6, some (.map 0)⟩, _, rfl, trivial, loop_valid, fun order ho depth => ?_⟩
  obtain ⟨e, he, _⟩ := loop_diverges ho depth loopHeap rfl (by decide)
  refine ⟨e, ?_⟩
  simp only [clone, copyInfo_eq, he]
  rfl

/-- A field holding a map with the key `k`. -/
def keyHeap (k : Key) : Heap where
  objs := fun
    | 0 => .dict [(.val 0, .inter (.map 1))]
    | _ => .dict [(k, .scalar 7)]
  next := 2

theorem key_valid (k : Key) : Valid (keyHeap k) (.map 0) := by
  refine valid_of (by simp [keyHeap]) ?_ (fun v => v ∈ [.map 0, .inter (.map 1), .map 1, .scalar 7]) (by simp) ?_ (by simp)
  · intro l hl l' hl'
    simp only [keyHeap] at hl ⊢
    match l with
    | 0 => simp [keyHeap, Obj.locs, Val.locs] at hl'; subst hl'; exact Nat.lt_succ_self 1
    | 1 => simp [keyHeap, Obj.locs, Val.locs] at hl'
    | l + 2 => exact absurd hl (Nat.not_lt.mpr (Nat.le_add_left 2 l))
  · intro v s w hv hs
    simp only [List.mem_cons, List.not_mem_nil, or_false] at hv ⊢
    rcases hv with rfl | rfl | rfl | rfl <;> cases s <;> simp [Val.sel, Heap.entries, keyHeap, GoMap.get] at hs
    · exact .inr (.inl hs.2.symm)
    · exact .inr (.inr (.inl hs.symm))
    · exact .inr (.inr (.inr hs.2.symm))

/-- `Connection.Session` panics if a map in the information has the nil interface or NaN as a key. -/
theorem C43_key_violated (k : Key) (hk : k = .nilInterface ∨ k = .nan) : ∃ h s data, s.info = some data ∧ data.isMap ∧ Valid h data ∧
    h.entries 1 = [(k, .scalar 7)] ∧ walk h data [.key (.val 0), .dyn] = some (.map 1) ∧
    ∀ order, Lists order → ∀ depth, ∃ e, clone order depth h (some s) = .error e := by
  refine ⟨keyHeap k, ⟨[1], 5, 6, some (.map 0)⟩, _, rfl, trivial, key_valid k, rfl, rfl, fun order ho depth => ?_⟩
  cases hc : clone order depth (keyHeap k) (some ⟨[1], 5, 6, some (.map 0)⟩) with
  | error e => exact ⟨e, rfl⟩
  | ok r =>
    exfalso
    rcases clone_some hc with ⟨hi, _⟩ | ⟨data, h', data', hi, hr, _⟩
    · cases hi
    · cases hi
      have hr := copyRec_le (m := depth + 4) (by omega) hr
      have h0 : order (keyHeap k) 0 = [.val 0] := by
        have := ho (keyHeap k) 0
        simp only [Heap.entries, keyHeap, GoMap.keys, List.map_cons, List.map_nil] at this
        exact List.perm_singleton.mp this
      have h1 : order ((keyHeap k).alloc (.dict [])).1 1 = [k] := by
        have := ho ((keyHeap k).alloc (.dict [])).1 1
        simp only [Heap.alloc, Heap.entries, keyHeap, GoMap.keys, List.map_cons, List.map_nil] at this
        exact List.perm_singleton.mp this
      have e0 : ((keyHeap k).alloc (.dict [])).1.entries 0 = [(.val 0, .inter (.map 1))] := rfl
      have e1 : (((keyHeap k).alloc (.dict [])).1.alloc (.dict [])).1.entries 1 = [(k, .scalar 7)] := rfl
      rcases hk with rfl | rfl <;>
        simp [copyRec, h0, h1, List.foldlM_cons, copyEntry, e0, e1, GoMap.get, goPanic, bind, Except.bind] at hr

end Webwire.Copying
