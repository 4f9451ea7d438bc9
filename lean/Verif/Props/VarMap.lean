import Verif.Props.DeepCopy

/-!
# C67: `SessionInfoToVarMap`
-/

set_option autoImplicit false

namespace Webwire.Copying

variable {order : Heap → Loc → List Key}

/-- The values of the map at `l` have interface type, and its keys are names (`map[string]interface{}`). -/
def Named (h : Heap) (l : Loc) : Prop := ∀ e ∈ h.entries l, (∃ n, e.1 = .val n) ∧ (e.2 = .nilInter ∨ ∃ w, e.2 = .inter w)

/-- C67: given a large enough stack, `SessionInfoToVarMap` returns a deep copy of any generic information. -/
def C67_full : Prop :=
  ∀ (order : Heap → Loc → List Key), Lists order → ∀ (h : Heap) (l : Loc), Valid h (.map l) → Named h l →
    ∃ n, ∀ depth, n ≤ depth → ∃ h' v', varMap (some (genericInfo order depth (.map l))) h = .ok (h', v') ∧
      HandedOut h h' (.map l) v'

theorem foldlM_sim {α β : Type} {f g : β → α → Go β} {P : β → Prop} :
    ∀ (xs : List α) (b b' : β), P b → (∀ x ∈ xs, ∀ b b', P b → f b x = .ok b' → g b x = .ok b' ∧ P b') →
      xs.foldlM f b = .ok b' → xs.foldlM g b = .ok b' := by
  intro xs
  induction xs with
  | nil => intro b b' _ _ h; exact h
  | cons x xs ih =>
    intro b b' hp hs h
    simp only [List.foldlM_cons] at h ⊢
    obtain ⟨b1, h1, h2⟩ := bind_ok h
    obtain ⟨h3, h4⟩ := hs x (by simp) b b1 hp h1
    rw [h3]
    exact ih b1 b' h4 (fun x hx => hs x (List.mem_cons_of_mem _ hx)) h2

/-- The same as copying the map. -/
theorem varMap_of_copyRec (ho : Lists order) {h : Heap} {l : Loc} {d : Nat} {r : Heap × Val} (hv : Valid h (.map l))
    (hn : Named h l) (hr : copyRec order (d + 2) h (.map l) = .ok r) :
    varMap (some (genericInfo order d (.map l))) h = .ok r := by
  rw [copyRec] at hr
  obtain ⟨h2, hf, he⟩ := bind_ok hr
  cases he
  have hl : l < h.next := hv.used l (.here _ (by simp [Val.locs]))
  have := foldlM_sim (P := Base h) (g := fun h' k => do
      let x ← value order d h' (.map l) k
      return setKey x.1 h.next k x.2) (order h l) _ _ (.alloc _) (fun k hk b b' hb hx => by
    have e : b.entries l = h.entries l := by rw [Heap.entries, Heap.entries, hb.old l hl]
    have hk : k ∈ (h.entries l).keys := (ho h l).subset hk
    unfold copyEntry at hx
    split at hx
    · simp [goPanic] at hx
    · rename_i u hu
      split at hu
      · cases hu
      · rw [e] at hu
        obtain ⟨⟨h3, u3⟩, h4, h5⟩ := bind_ok hx
        split at h5
        · simp [goPanic] at h5
        · simp only [pure, Except.pure, Except.ok.injEq] at h5
          have hs : (Val.map l).sel h (.key k) = some u := hu
          have hub := (hv.part hs).agree (hb.agree (hv.part hs)) (Nat.le_of_lt hb.next)
          have hbase : Base h b' := by
            rw [← h5]
            exact (hb.copied_part (copyRec_copied ho _ _ _ _ _ hub h4)).put _
          refine ⟨?_, hbase⟩
          simp only [value, e, hu]
          rcases (hn _ (get_mem hu)).2 with e2 | ⟨w, e2⟩
          · simp only at e2
            subst e2
            simp only [copyRec, Except.ok.injEq, Prod.mk.injEq] at h4
            obtain ⟨rfl, rfl⟩ := h4
            simp only [deepCopy]
            rw [← h5]
            rfl
          · simp only at e2
            subst e2
            rw [copyRec] at h4
            obtain ⟨x, h6, h7⟩ := bind_ok h4
            cases h7
            simp only [deepCopy, h6]
            rw [← h5]
            rfl) hf
  simp only [varMap, genericInfo]
  rw [show (h.alloc (.dict [])).2 = h.next from rfl]
  rw [this]
  rfl

/-- C67 for information of maps, slices, interfaces and scalars that does not contain itself, without nil and NaN as keys of
nested maps: the map returned has the same names as the information, deeply equal values, and shares nothing with it. -/
theorem C67_partial (ho : Lists order) (h : Heap) (l : Loc) (hv : Valid h (.map l)) (hn : Named h l)
    (hd : Deep h (.map l)) (hk : Keyed h (.map l)) (hl : NoLoop h (.map l)) :
    ∃ n, ∀ depth, n ≤ depth → ∃ h' v', varMap (some (genericInfo order depth (.map l))) h = .ok (h', v') ∧
      HandedOut h h' (.map l) v' := by
  obtain ⟨n, hend⟩ := copyRec_ends ho hl hv hk
  obtain ⟨r, hr⟩ := hend h (fun _ _ => rfl) (Nat.le_refl _)
  refine ⟨n, fun depth hnd => ⟨r.1, r.2, ?_, copied_handedOut hv hd (copyRec_copied ho _ _ _ _ _ hv hr)⟩⟩
  exact varMap_of_copyRec ho hv hn (copyRec_le (Nat.le_trans hnd (Nat.le_add_right _ 2)) hr)

/-- Without information there is no map; information without data (a nil map) gives an empty one. -/
theorem C67_nil (depth : Nat) (h : Heap) : varMap none h = .ok (h, .nilMap) ∧
    ∃ h', varMap (some (genericInfo order depth .nilMap)) h = .ok (h', .map h.next) ∧
      (h'.entries h.next).keys = [] ∧ ∀ l < h.next, h'.objs l = h.objs l := by
  refine ⟨rfl, _, rfl, ?_, fun l hl => ?_⟩
  · simp [Heap.entries, Heap.alloc, GoMap.keys]
  · simp [Heap.alloc, Nat.ne_of_lt hl]

/-- Other implementations of `SessionInfo`, whose methods change no memory in use: the map has exactly the names they list,
with exactly the values they return. -/
theorem C67_any (i : Info) (h : Heap) (names : List Key) (val : Key → Val) (hf : i.fields h = names)
    (hv : ∀ h' k, i.value h' k = .ok (h', val k)) :
    ∃ h', varMap (some i) h = .ok (h', .map h.next) ∧ (∀ l < h.next, h'.objs l = h.objs l) ∧
      ∀ k, walk h' (.map h.next) [.key k] = if k ∈ names then some (val k) else none := by
  have key : ∀ (ks : List Key) (b : Heap) (m : GoMap Key Val), b.objs h.next = .dict m → b.next = h.next + 1 →
      (∀ l < h.next, b.objs l = h.objs l) → ∃ b' m', ks.foldlM (fun h' k => do
        let x ← i.value h' k
        return setKey x.1 h.next k x.2) b = (.ok b' : Go Heap) ∧ b'.objs h.next = .dict m' ∧
        (∀ l < h.next, b'.objs l = h.objs l) ∧ ∀ k, m'.get k = if k ∈ ks then some (val k) else m.get k := by
    intro ks
    induction ks with
    | nil => intro b m hm _ ho; exact ⟨b, m, rfl, hm, ho, by simp⟩
    | cons k ks ih =>
      intro b m hm hnx ho
      obtain ⟨b', m', h1, h2, h3, h4⟩ := ih (setKey b h.next k (val k)) (m.set k (val k))
        (by simp [setKey, Heap.put, Heap.entries, hm]) hnx
        (fun l hl => by rw [← ho l hl]; simp [setKey, Heap.put, Nat.ne_of_lt hl])
      refine ⟨b', m', ?_, h2, h3, fun k' => ?_⟩
      · rw [List.foldlM_cons, hv]
        exact h1
      · rw [h4, GoMap.get_set]
        by_cases e : k' ∈ ks <;> by_cases e' : k = k' <;> grind
  obtain ⟨b', m', h1, h2, h3, h4⟩ := key names (h.alloc (.dict [])).1 [] (by simp [Heap.alloc]) rfl
    (fun l hl => by simp [Heap.alloc, Nat.ne_of_lt hl])
  refine ⟨b', ?_, h3, fun k => ?_⟩
  · simp only [varMap, hf]
    rw [show (h.alloc (.dict [])).2 = h.next from rfl, h1]
    rfl
  · have := h4 k
    simp only [GoMap.get] at this
    simp only [walk, Val.sel, Heap.entries, h2, this]
    split <;> rfl

/-- Pointers are copied as they are: whoever has the map returned can change the stored information. -/
theorem C67_violated : ¬ C67_full := by
  intro hf
  obtain ⟨n, hn⟩ := hf inOrder lists_inOrder ptrHeap 0 ptr_valid (by
    intro e he
    simp [Heap.entries, ptrHeap] at he
    subst he
    exact ⟨⟨0, rfl⟩, .inr ⟨_, rfl⟩⟩)
  obtain ⟨h', v', hc, hi⟩ := hn (n + 9) (by omega)
  have h9 : ∃ h9, copyRec inOrder 9 ptrHeap (.map 0) = .ok (h9, .map 2) ∧ h9.objs 1 = .cell (.scalar 7) ∧
      h9.objs 0 = .dict [(.val 0, .inter (.ptr 1))] ∧ h9.objs 2 = .dict [(.val 0, .inter (.ptr 1))] :=
    ⟨_, rfl, rfl, rfl, rfl⟩
  obtain ⟨h9, hc9, e1, e0, e2⟩ := h9
  rw [varMap_of_copyRec lists_inOrder ptr_valid (by
    intro e he
    simp [Heap.entries, ptrHeap] at he
    subst he
    exact ⟨⟨0, rfl⟩, .inr ⟨_, rfl⟩⟩) (copyRec_le (m := n + 9 + 2) (by omega) hc9)] at hc
  cases hc
  rename' h' => h9
  have h1 : DoesAll (h9, [.map 2]) (h9, [.inter (.ptr 1), .map 2]) :=
    .step _ _ .start (.take _ _ (.map 2) _ (.key (.val 0)) (by simp) (by simp [Val.sel, Heap.entries, e2, GoMap.get]))
  have h2 : DoesAll (h9, [.map 2]) (h9.put 1 (.cell (.scalar 8)), [.inter (.ptr 1), .map 2]) :=
    .step _ _ h1 (.write _ _ 1 (.cell (.scalar 8)) ⟨.inter (.ptr 1), by simp, by simp [Val.locs]⟩ (by simp [Obj.locs, Val.locs]))
  have h3 := hi.out _ _ h2 [.key (.val 0), .dyn, .deref]
  simp [look, walk, Val.sel, Heap.entries, Heap.put, e0, e1, GoMap.get, Val.obs] at h3

/-- What JSON decodes to satisfies the hypotheses of `C67_partial`. -/
example : Named jsonHeap 0 ∧ Valid jsonHeap (.map 0) ∧ Deep jsonHeap (.map 0) ∧ Keyed jsonHeap (.map 0) ∧
    NoLoop jsonHeap (.map 0) := by
  refine ⟨?_, jsonLike_ok (n := 9) rfl⟩
  intro e he
  simp [Heap.entries, jsonHeap] at he
  rcases he with rfl | rfl <;> exact ⟨⟨_, rfl⟩, .inr ⟨_, rfl⟩⟩

example : ∃ h', varMap (some (genericInfo inOrder 9 (.map 0))) jsonHeap = .ok (h', .map 3) ∧
    look h' (.map 3) [.key (.val 0), .dyn, .key (.val 1), .dyn] = some (.scalar 9) ∧
    look (h'.put 4 (.dict [])) (.map 0) [.key (.val 0), .dyn, .key (.val 1), .dyn] = some (.scalar 9) := ⟨_, rfl, rfl, rfl⟩

/-- An implementation with two fields. -/
example : ∃ i : Info, i.fields jsonHeap = [.val 1, .val 2] ∧ ∀ h' k, i.value h' k = .ok (h', .inter (.scalar 5)) :=
  ⟨⟨fun _ => [.val 1, .val 2], fun h _ => .ok (h, .inter (.scalar 5))⟩, rfl, fun _ _ => rfl⟩

end Webwire.Copying
