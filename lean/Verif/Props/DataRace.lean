import Verif.Props.Locks

/-!
# C87: concurrent use of the API is free of data races
-/

set_option autoImplicit false

namespace Webwire.Locks

/-- The goroutine is about to do this. -/
def Thread.about (t : Thread) (a : Acc) : Prop := t.todo.head? = some (.acc a)

/-- Two goroutines are about to access the same variable at once, one of them to write it. -/
def Race (s : State) (t u : Thread) (a b : Acc) : Prop :=
  ∃ i j : Nat, i ≠ j ∧ s[i]? = some t ∧ s[j]? = some u ∧ t.about a ∧ u.about b ∧ a.loc = b.loc ∧ (a.write = true ∨ b.write = true)

/-- C87: whatever goroutines use the server and the request manager for, and whatever hooks call, there is no data race. -/
def C87_full : Prop := ∀ s, Reach (fun _ => True) [] s → ∀ t u a b, ¬ Race s t u a b

/-! ## Which lock guards which variable -/

/-- The lock that guards the variable. -/
def Loc.lock : Loc → Lock
  | .session c => .sess c
  | .state c => .state c
  | .registry => .reg
  | .ops => .ops
  | .conns => .conns
  | .pending => .pending

/-- One of the three places that read a connection's session without its lock. -/
def Acc.unguarded (a : Acc) : Prop :=
  (∃ c, a.loc = .session c) ∧ a.write = false ∧ (a.site = .register ∨ a.site = .deregister ∨ a.site = .refusal)

/-- The access is made under the lock. -/
def Acc.guarded (a : Acc) (held : List (Lock × Bool)) : Prop :=
  (a.loc.lock, true) ∈ held ∨ (a.write = false ∧ (a.loc.lock, false) ∈ held)

/-- What the goroutine has to do releases what it takes and accesses variables under their locks. -/
def Kept : List (Lock × Bool) → List (List (Lock × Bool)) → List Op → Prop
  | _, _, [] => True
  | own, below, .lock l w :: r => Kept ((l, w) :: own) below r
  | own, below, .unlock l :: r => ∃ w t, own = (l, w) :: t ∧ Kept t below r
  | own, below, .acc a :: r => (a.guarded own ∨ a.unguarded) ∧ Kept own below r
  | own, below, .await _ :: r => Kept own below r
  | own, below, .hook _ :: r => Kept own below r
  | own, below, .call _ :: r => Kept own below r
  | _, below, .ret :: r => ∃ o b, below = o :: b ∧ Kept o b r
  | own, below, .panic :: r => Kept own below r

/-- A piece of code that accesses variables under their locks when it runs with these. -/
def Keeps (held : List (Lock × Bool)) (a : Ways) : Prop :=
  ∀ x, a x → ∀ own below r, held <+: own → Kept own below r → Kept own below (x ++ r)

theorem keeps_nop (held : List (Lock × Bool)) : Keeps held nop := by
  rintro x rfl own below r _ h
  exact h

theorem keeps_seq {held : List (Lock × Bool)} {a b : Ways} (ha : Keeps held a) (hb : Keeps held b) : Keeps held (a ⬝ b) := by
  rintro x ⟨u, v, hu, hv, rfl⟩ own below r e h
  rw [List.append_assoc]
  exact ha u hu _ _ _ e (hb v hv _ _ r e h)

theorem keeps_alt {held : List (Lock × Bool)} {a b : Ways} (ha : Keeps held a) (hb : Keeps held b) : Keeps held (a ⊕ b) := by
  rintro x (h | h)
  · exact ha x h
  · exact hb x h

theorem keeps_many {held : List (Lock × Bool)} {a : Ways} (ha : Keeps held a) : Keeps held (many a) := by
  intro x hx
  induction hx with
  | none => exact fun own below r _ h => h
  | more u v hu _ ih =>
    intro own below r e h
    rw [List.append_assoc]
    exact ha u hu _ _ _ e (ih _ _ r e h)

theorem keeps_hook (held : List (Lock × Bool)) (h : Hook) : Keeps held (just [.hook h]) := by
  rintro x rfl own below r _ hr
  exact hr

theorem keeps_locked {held : List (Lock × Bool)} {l : Lock} {w : Bool} {a : Ways} (ha : Keeps ((l, w) :: held) a) :
    Keeps held (locked l w a) := by
  rintro x ⟨_, _, rfl, ⟨u, _, hu, rfl, rfl⟩, rfl⟩ own below r e hr
  have := ha u hu ((l, w) :: own) below (.unlock l :: r) (List.cons_prefix_cons.mpr ⟨rfl, e⟩) ⟨w, own, rfl, hr⟩
  simpa [Kept] using this

theorem keeps_touch {held : List (Lock × Bool)} {as : List Acc} (h : ∀ a ∈ as, a.guarded held ∨ a.unguarded) :
    Keeps held (touch as) := by
  rintro x rfl own below r e hr
  induction as with
  | nil => exact hr
  | cons a as ih =>
    refine ⟨?_, ih fun b hb => h b (by simp [hb])⟩
    rcases h a (by simp) with (h | ⟨h, h'⟩) | h
    · exact .inl (.inl (e.subset h))
    · exact .inl (.inr ⟨h, e.subset h'⟩)
    · exact .inr h

theorem keeps_section {held : List (Lock × Bool)} {l : Lock} {w : Bool} {as : List Acc}
    (h : ∀ a ∈ as, a.guarded ((l, w) :: held) ∨ a.unguarded) : Keeps held (section_ l w as) := keeps_locked (keeps_touch h)

theorem keeps_send (held : List (Lock × Bool)) (c : Nat) : Keeps held (send c) :=
  keeps_alt (keeps_nop _) (keeps_locked (keeps_alt (keeps_nop _) fun _ hx _ _ _ _ hr => by cases hx; exact hr))

/-- The accesses in question. -/
local macro "accesses" : tactic => `(tactic| simp [Acc.guarded, Acc.unguarded, rd, wr, Loc.lock])

theorem keeps_register (held : List (Lock × Bool)) (c : Nat) : Keeps held (register c) := keeps_section (by accesses)

theorem keeps_deregister (held : List (Lock × Bool)) (c : Nat) (b : Bool) : Keeps held (deregister c b) := by
  have r : Keeps held (section_ .reg true [rd (.session c) .deregister, wr .registry]) := keeps_section (by accesses)
  have t : Keeps held (touch [rd (.session c) .deregister]) := keeps_touch (by accesses)
  refine keeps_seq t (keeps_alt (keeps_nop _) (keeps_alt r ?_))
  split
  · exact keeps_seq r (keeps_seq t (keeps_hook _ _))
  · exact r

theorem keeps_setSession (held : List (Lock × Bool)) (c : Nat) : Keeps held (setSession c) := keeps_section (by accesses)

theorem keeps_unlink (held : List (Lock × Bool)) (c : Nat) : Keeps held (unlink c) :=
  keeps_seq (keeps_deregister _ _ _) (keeps_seq (keeps_setSession _ _) (keeps_send _ _))

theorem keeps_createSession (held : List (Lock × Bool)) (c : Nat) : Keeps held (createSession c) := by
  have t : Keeps ((.sess c, true) :: held) (touch [rd (.session c)]) := keeps_touch (by accesses)
  have i := keeps_many (keeps_hook ((.sess c, true) :: held) .info)
  have g := keeps_hook ((.sess c, true) :: held) .generate
  exact keeps_alt (keeps_nop _) (keeps_alt (keeps_seq (keeps_section (by accesses)) (keeps_touch (by accesses)))
    (keeps_alt (keeps_locked (keeps_seq t (keeps_seq g (keeps_seq i (keeps_send _ _)))))
      (keeps_seq (keeps_locked (keeps_seq t (keeps_seq g (keeps_seq i (keeps_seq (keeps_send _ _)
        (keeps_seq (keeps_touch (by accesses)) (keeps_register _ _))))))) (keeps_hook _ _))))

theorem keeps_closeSession (held : List (Lock × Bool)) (c : Nat) : Keeps held (closeSession c) :=
  keeps_alt (keeps_nop _) (keeps_alt (keeps_section (by accesses))
    (keeps_seq (keeps_locked (keeps_seq (keeps_touch (by accesses)) (keeps_seq (keeps_deregister _ _ _)
      (keeps_touch (by accesses))))) (keeps_send _ _)))

theorem keeps_close (held : List (Lock × Bool)) (c : Nat) : Keeps held (close c) :=
  keeps_alt (keeps_section (by accesses)) (keeps_seq (keeps_section (by accesses)) (keeps_alt (keeps_nop _) (keeps_unlink _ _)))

theorem keeps_deregisterHandler (held : List (Lock × Bool)) (c : Nat) : Keeps held (deregisterHandler c) :=
  keeps_seq (keeps_section (by accesses)) (keeps_seq (keeps_section (by accesses))
    (keeps_alt (keeps_nop _) (keeps_unlink _ _)))

theorem keeps_handler (held : List (Lock × Bool)) (c : Nat) : Keeps held (handler c) :=
  keeps_alt (keeps_seq (keeps_hook _ _) (keeps_seq (keeps_send _ _) (keeps_deregisterHandler _ _)))
    (keeps_seq (keeps_hook _ _) (keeps_deregisterHandler _ _))

theorem keeps_restore (held : List (Lock × Bool)) (c : Nat) : Keeps held (handleSessionRestore c) := by
  have g : Keeps held (section_ .reg false [rd .registry]) := keeps_section (by accesses)
  have s := keeps_send held c
  have h := keeps_hook held .onSessionLookup
  exact keeps_seq (keeps_alt s (keeps_alt (keeps_seq g s) (keeps_alt (keeps_seq g (keeps_seq h s))
    (keeps_seq g (keeps_seq h (keeps_seq (keeps_many (keeps_hook _ _)) (keeps_seq (keeps_setSession _ _)
      (keeps_seq (keeps_register _ _) s)))))))) (keeps_deregisterHandler _ _)

theorem keeps_closure (held : List (Lock × Bool)) (c : Nat) : Keeps held (handleSessionClosure c) := by
  have g : Keeps held (section_ (.sess c) false [rd (.session c)]) := keeps_section (by accesses)
  have s := keeps_send held c
  exact keeps_seq (keeps_alt s (keeps_alt (keeps_seq g s) (keeps_seq g (keeps_seq (keeps_deregister _ _ _)
    (keeps_seq (keeps_setSession _ _) s))))) (keeps_deregisterHandler _ _)

theorem keeps_message (held : List (Lock × Bool)) (c : Nat) : Keeps held (handleMessage c) := by
  have a : Keeps held (section_ (.state c) false [rd (.state c)]) := keeps_section (by accesses)
  refine keeps_alt (keeps_nop _) (keeps_alt (keeps_alt a (keeps_seq a (keeps_seq (keeps_section (by accesses))
    (keeps_send _ _)))) ?_)
  exact keeps_seq (keeps_seq a (keeps_seq (keeps_section (by accesses)) (keeps_section (by accesses))))
    (keeps_alt (keeps_nop _) (keeps_alt (keeps_handler _ _) (keeps_alt (keeps_restore _ _) (keeps_alt (keeps_closure _ _)
      (keeps_deregisterHandler _ _)))))

theorem keeps_ways (held : List (Lock × Bool)) (f : Fn) : Keeps held f.ways := by
  cases f with
  | isActive c => exact keeps_section (by accesses)
  | signal c => exact keeps_send _ _
  | createSession c => exact keeps_createSession _ _
  | closeSession c => exact keeps_closeSession _ _
  | getter c => exact keeps_section (by accesses)
  | infoGetter c => exact keeps_locked (keeps_seq (keeps_touch (by accesses)) (keeps_many (keeps_hook _ _)))
  | close c => exact keeps_close _ _
  | srvCloseSession =>
    refine keeps_seq (keeps_section (by accesses)) (keeps_many ?_)
    rintro x ⟨c, h⟩
    exact keeps_closeSession _ c x h
  | registryGetter => exact keeps_section (by accesses)
  | shutdown => exact keeps_section (by accesses)
  | isShuttingDown => exact keeps_section (by accesses)
  | rmCreate => exact keeps_section (by accesses)
  | rmAwait => exact keeps_alt (keeps_nop _) (keeps_section (by accesses))
  | rmResolve => exact keeps_seq (keeps_section (by accesses)) (keeps_alt (keeps_nop _) (keeps_section (by accesses)))
  | rmGetter => exact keeps_section (by accesses)
  | serve c =>
    exact keeps_alt (keeps_send _ _) (keeps_seq (keeps_send _ _) (keeps_seq (keeps_section (by accesses))
      (keeps_seq (keeps_hook _ _) (keeps_seq (keeps_many (keeps_message _ _)) (keeps_seq (keeps_close _ _)
        (keeps_hook _ _))))))
  | handler c => exact keeps_handler _ _

/-- `Kept`, for locks the goroutine has; it may have more, left behind by panics. -/
def Disciplined (t : Thread) : Prop := ∃ own below, (own ++ below.flatten).Sublist t.held ∧ Kept own below t.todo

theorem kept_calls {own : List (Lock × Bool)} {below : List (List (Lock × Bool))} {r : List Op} (h : Kept own below r)
    (calls : List Fn) : Kept own below (calls.map .call ++ r) := by
  induction calls with
  | nil => exact h
  | cons f fs ih => exact ih

/-- Where user code recovers from a panic. -/
theorem kept_unwind {own : List (Lock × Bool)} {below : List (List (Lock × Bool))} {a r : List Op}
    (h : Kept own below (a ++ .ret :: r)) : ∃ pre o b, below = pre ++ o :: b ∧ Kept o b r := by
  induction a generalizing own below with
  | nil =>
    obtain ⟨o, b, e, h⟩ := h
    exact ⟨[], o, b, e, h⟩
  | cons x a ih =>
    cases x with
    | lock l w => exact ih h
    | unlock l =>
      obtain ⟨w, t, -, h⟩ := h
      exact ih h
    | acc x => exact ih h.2
    | await c => exact ih h
    | hook k => exact ih h
    | call f => exact ih h
    | panic => exact ih h
    | ret =>
      obtain ⟨o, b, rfl, h⟩ := h
      obtain ⟨pre, o', b', rfl, h'⟩ := ih h
      exact ⟨o :: pre, o', b', rfl, h'⟩

theorem sublist_unlock {pre post rest : List (Lock × Bool)} {l : Lock} {w w' : Bool} (hp : ∀ b, (l, b) ∉ pre)
    (h : ((l, w) :: rest).Sublist (pre ++ (l, w') :: post)) : rest.Sublist (pre ++ post) := by
  induction pre with
  | nil =>
    cases h with
    | cons _ h => exact (List.sublist_cons_self _ _).trans h
    | cons_cons _ h => exact h
  | cons x pre ih =>
    cases h with
    | cons _ h => exact (ih (fun b hb => hp b (by simp [hb])) h).trans (List.sublist_cons_self _ _)
    | cons_cons _ h => exact absurd (by simp) (hp w)

theorem Act.disciplined {s : State} {t t' : Thread} {l : Label} (h : Act s t l t') (hg : Disciplined t) : Disciplined t' := by
  obtain ⟨own, below, e, hs⟩ := hg
  cases h with
  | lock held l w r _ => exact ⟨_, below, by simpa using e.cons_cons (l, w), hs⟩
  | unlock pre post l w r hp =>
    obtain ⟨w', t, rfl, hs⟩ := hs
    exact ⟨t, below, sublist_unlock hp e, hs⟩
  | acc held a r => exact ⟨own, below, e, hs.2⟩
  | await held c r => exact ⟨own, below, e, hs⟩
  | hook held h r calls p _ hp =>
    refine ⟨own, below, e, kept_calls ?_ calls⟩
    cases p
    · exact hs
    · exact hs
  | call held f x r hx =>
    by_cases hapi : f.api = true
    · refine ⟨[], own :: below, by simpa using e, keeps_ways [] f x hx [] (own :: below) _ (by simp) ?_⟩
      rw [if_pos hapi]
      exact ⟨own, below, rfl, hs⟩
    · refine ⟨own, below, e, keeps_ways [] f x hx own below _ (by simp) ?_⟩
      rw [if_neg hapi]
      exact hs
  | ret held r =>
    obtain ⟨o, b, rfl, hs⟩ := hs
    refine ⟨o, b, List.Sublist.trans ?_ e, hs⟩
    simp
  | panic held a r =>
    obtain ⟨pre, o, b, rfl, h'⟩ := kept_unwind (a := a) (r := r) hs
    refine ⟨o, b, List.Sublist.trans ?_ e, h'⟩
    simp only [List.flatten_append, List.flatten_cons]
    exact (List.sublist_append_right _ _).trans (List.sublist_append_right _ _)

theorem Reach.disciplined {ok : Label → Prop} {s : State} (h : Reach ok [] s) : ∀ t ∈ s, Disciplined t := by
  induction h with
  | start => simp
  | step u v l _ ho hs ih =>
    cases hs with
    | act pre post t t' l ha =>
      intro x hx
      simp only [List.mem_append, List.mem_cons] at hx ih
      rcases hx with hx | rfl | hx
      · exact ih x (.inl hx)
      · exact ha.disciplined (ih t (.inr (.inl rfl)))
      · exact ih x (.inr (.inr hx))
    | spawn s f =>
      intro x hx
      rcases List.mem_append.mp hx with hx | hx
      · exact ih x hx
      · rw [List.mem_singleton.mp hx]; exact ⟨[], [], by simp, trivial⟩

/-! ## Mutual exclusion -/

/-- Nobody else has a lock that is held for writing. -/
def Exclusive (s : State) : Prop :=
  ∀ (i j : Nat) (t u : Thread) (l : Lock) (b : Bool), i ≠ j → s[i]? = some t → s[j]? = some u → (l, true) ∈ t.held → (l, b) ∉ u.held

theorem Act.held {s : State} {t t' : Thread} {k : Label} (h : Act s t k t') :
    (∃ l w, t'.held = (l, w) :: t.held ∧ Free s l w) ∨ ∀ x ∈ t'.held, x ∈ t.held := by
  cases h with
  | lock held l w r hf => exact .inl ⟨l, w, rfl, hf⟩
  | unlock pre post l w r hp =>
    refine .inr fun x hx => ?_
    simp only [List.mem_append, List.mem_cons] at hx ⊢
    rcases hx with h | h
    · exact .inl h
    · exact .inr (.inr h)
  | acc _ _ _ => exact .inr fun x hx => hx
  | await _ _ _ => exact .inr fun x hx => hx
  | hook _ _ _ _ _ _ _ => exact .inr fun x hx => hx
  | call _ _ _ _ _ => exact .inr fun x hx => hx
  | ret _ _ => exact .inr fun x hx => hx
  | panic _ _ _ => exact .inr fun x hx => hx

theorem exclusive_act {s : State} {pre post : List Thread} {t t' : Thread} {k : Label} (hs : s = pre ++ t :: post)
    (ha : Act s t k t') (he : Exclusive s) : Exclusive (pre ++ t' :: post) := by
  have get : ∀ (x : Thread) (i : Nat), (pre ++ x :: post)[i]? = if i = pre.length then some x else s[i]? := by
    intro x i
    subst hs
    rcases Nat.lt_trichotomy i pre.length with h | h | h
    · rw [if_neg (by omega), List.getElem?_append_left h, List.getElem?_append_left h]
    · simp [h]
    · rw [if_neg (by omega), List.getElem?_append_right (by omega), List.getElem?_append_right (by omega)]
      obtain ⟨d, hd⟩ : ∃ d, i - pre.length = d + 1 := ⟨i - pre.length - 1, by omega⟩
      simp [hd]
  have ht : s[pre.length]? = some t := by rw [hs]; simp
  intro i j a b l w hij hi hj hm hn
  rw [get] at hi hj
  split at hi
  · rename_i ei
    rw [if_neg (by omega)] at hj
    cases hi
    rcases ha.held with ⟨l', w', e, hf⟩ | h
    · rw [e] at hm
      rcases List.mem_cons.mp hm with hm | hm
      · cases hm
        exact hf b (List.mem_of_getElem? hj) w hn
      · exact he i j t b l w hij (by rw [ei]; exact ht) hj hm hn
    · exact he i j t b l w hij (by rw [ei]; exact ht) hj (h _ hm) hn
  · split at hj
    · rename_i ej
      cases hj
      rcases ha.held with ⟨l', w', e, hf⟩ | h
      · rw [e] at hn
        rcases List.mem_cons.mp hn with hn | hn
        · cases hn
          unfold Free at hf
          split at hf
          · exact hf a (List.mem_of_getElem? hi) true hm
          · exact (hf a (List.mem_of_getElem? hi)).1 hm
        · exact he i j a t l w hij hi (by rw [ej]; exact ht) hm hn
      · exact he i j a t l w hij hi (by rw [ej]; exact ht) hm (h _ hn)
    · exact he i j a b l w hij hi hj hm hn

theorem Reach.exclusive {ok : Label → Prop} {s : State} (h : Reach ok [] s) : Exclusive s := by
  induction h with
  | start => intro i j t u l b _ hi; simp at hi
  | step u v l _ ho hs ih =>
    cases hs with
    | act pre post t t' l ha => exact exclusive_act rfl ha ih
    | spawn s f =>
      have get : ∀ (i : Nat) (x : Thread), (u ++ [(⟨[], [.call f]⟩ : Thread)])[i]? = some x → u[i]? = some x ∨ x.held = [] := by
        intro i x hx
        rcases Nat.lt_or_ge i u.length with h | h
        · rw [List.getElem?_append_left h] at hx
          exact .inl hx
        · rw [List.getElem?_append_right h] at hx
          right
          obtain ⟨h, hx⟩ := List.getElem?_eq_some_iff.mp hx
          simp only [List.length_singleton, Nat.lt_one_iff] at h
          simp only [h, List.getElem_cons_zero] at hx
          rw [← hx]
      intro i j a b l w hij hi hj hm hn
      rcases get i a hi with hi | hi
      · rcases get j b hj with hj | hj
        · exact ih i j a b l w hij hi hj hm hn
        · rw [hj] at hn; cases hn
      · rw [hi] at hm; cases hm

/-! ## The theorem -/

theorem about_guarded {t : Thread} (hd : Disciplined t) {a : Acc} (ha : t.about a) : a.guarded t.held ∨ a.unguarded := by
  obtain ⟨own, below, e, hs⟩ := hd
  unfold Thread.about at ha
  cases h : t.todo with
  | nil => simp [h] at ha
  | cons o r =>
    simp only [h, List.head?_cons, Option.some.injEq] at ha
    subst ha
    rw [h] at hs
    have sub : ∀ x ∈ own, x ∈ t.held := fun x hx => e.subset (by simp [hx])
    rcases hs.1 with (h | ⟨h, h'⟩) | h
    · exact .inl (.inl (sub _ h))
    · exact .inl (.inr ⟨h, sub _ h'⟩)
    · exact .inr h

theorem Race.symm {s : State} {t u : Thread} {a b : Acc} (h : Race s t u a b) : Race s u t b a := by
  obtain ⟨i, j, h1, h2, h3, h4, h5, h6, h7⟩ := h
  exact ⟨j, i, h1.symm, h3, h2, h5, h4, h6.symm, h7.symm⟩

/-- C87 for everything but a connection's session: no data race. As to a connection's session, writes never race with each
other, nor with what the API tells about it: only `register`, `deregister` and the error of `CreateSession` read it without
its lock, and race with writes. Missing: those three. -/
theorem C87_partial (s : State) (h : Reach (fun _ => True) [] s) (t u : Thread) (a b : Acc) (hr : Race s t u a b) :
    ∃ c, a.loc = .session c ∧ b.loc = .session c ∧
      ((a.write = true ∧ b.write = false ∧ (b.site = .register ∨ b.site = .deregister ∨ b.site = .refusal) ∧
          ∀ w, (.sess c, w) ∉ u.held) ∨
        (b.write = true ∧ a.write = false ∧ (a.site = .register ∨ a.site = .deregister ∨ a.site = .refusal) ∧
          ∀ w, (.sess c, w) ∉ t.held)) := by
  -- from the writer's side
  have main : ∀ t u a b, Race s t u a b → a.write = true → ∃ c, a.loc = .session c ∧ b.loc = .session c ∧
      b.write = false ∧ (b.site = .register ∨ b.site = .deregister ∨ b.site = .refusal) ∧ ∀ w, (.sess c, w) ∉ u.held := by
    rintro t u a b ⟨i, j, hij, hi, hj, ha, hb, e, -⟩ hw
    have hl : (a.loc.lock, true) ∈ t.held := by
      rcases about_guarded (h.disciplined t (List.mem_of_getElem? hi)) ha with (h | ⟨h, -⟩) | ⟨-, h, -⟩
      · exact h
      · simp [hw] at h
      · simp [hw] at h
    have hn : ∀ w, (a.loc.lock, w) ∉ u.held := fun w => h.exclusive i j t u _ w hij hi hj hl
    rcases about_guarded (h.disciplined u (List.mem_of_getElem? hj)) hb with (h | ⟨-, h⟩) | ⟨⟨c, hc⟩, h1, h2⟩
    · exact absurd (e ▸ h) (hn _)
    · exact absurd (e ▸ h) (hn _)
    · refine ⟨c, by rw [e, hc], hc, h1, h2, fun w => ?_⟩
      have := hn w
      rwa [e, hc] at this
  have hrw := hr
  obtain ⟨-, -, -, -, -, -, -, -, hw | hw⟩ := hr
  · obtain ⟨c, h1, h2, h3⟩ := main t u a b hrw hw
    exact ⟨c, h1, h2, .inl ⟨hw, h3⟩⟩
  · obtain ⟨c, h1, h2, h3⟩ := main u t b a hrw.symm hw
    exact ⟨c, h2, h1, .inr ⟨hw, h3⟩⟩

/-! ## The races -/

theorem first {ok : Label → Prop} {s : State} {t t' u : Thread} {l : Label} (h : Reach ok s [t, u]) (ho : ok l)
    (ha : Act [t, u] t l t') : Reach ok s [t', u] := .step _ _ l h ho (.act [] [u] t t' l ha)

theorem second {ok : Label → Prop} {s : State} {t u u' : Thread} {l : Label} (h : Reach ok s [t, u]) (ho : ok l)
    (ha : Act [t, u] u l u') : Reach ok s [t, u'] := .step _ _ l h ho (.act [t] [] u u' l ha)

/-- The goroutine, which is next to another one, starts closing the session of connection 0, the last one of it. -/
theorem closes {t : Thread} (h : Reach (fun _ => True) [] [t]) (hh : ∀ l b, (l, b) ∉ t.held) :
    Reach (fun _ => True) [] [t, ⟨[(.sess 0, true)], [.acc (wr (.session 0)), .unlock (.sess 0), .ret]⟩] := by
  have r0 : Reach (fun _ => True) [] [t, ⟨[], [.call (.closeSession 0)]⟩] := .step _ _ .spawn h trivial (.spawn [t] _)
  have r1 := second r0 trivial (.call [] _ _ [] (closeWay_way 0))
  have r2 := second r1 trivial (.lock [] (.sess 0) true _ (by simp [Free, hh]))
  have r3 := second (second r2 trivial (.acc _ _ _)) trivial (.acc _ _ _)
  have r4 := second r3 trivial (.lock _ .reg true _ (by simp [Free, hh]))
  have r5 := second (second r4 trivial (.acc _ _ _)) trivial (.acc _ _ _)
  have r6 := second r5 trivial (.unlock [] _ .reg true _ (by simp))
  have r7 := second r6 trivial (.acc _ _ _)
  exact second r7 trivial (.hook _ .onSessionClosed _ [] false (by simp) (by simp))

/-- One after the other. -/
local macro "sq(" a:term ", " b:term ")" : term => `(⟨_, _, $a, $b, rfl⟩)

/-- The race of `deregister`: `OnClientConnected` creates a session; then the client goes away, and connection 0 is unlinked
while user code closes its session. -/
theorem race_deregister : ∃ s t u b, Reach (fun _ => True) [] s ∧ Race s t u (wr (.session 0)) b ∧ b.site = .deregister := by
  have w : serve 0 [.lock .conns true, .acc (wr .conns), .unlock .conns, .hook .onClientConnected, .lock (.state 0) true,
      .acc (wr (.state 0)), .unlock (.state 0), .acc (rd (.session 0) .deregister), .lock .reg true,
      .acc (rd (.session 0) .deregister), .acc (wr .registry), .unlock .reg, .lock (.sess 0) true,
      .acc (wr (.session 0)), .unlock (.sess 0), .hook .onClientDisconnected] := by
    have u : unlink 0 [.acc (rd (.session 0) .deregister), .lock .reg true, .acc (rd (.session 0) .deregister),
        .acc (wr .registry), .unlock .reg, .lock (.sess 0) true, .acc (wr (.session 0)), .unlock (.sess 0)] :=
      sq(sq(rfl, .inr (.inl (section_way _ _ _))), sq(section_way _ _ _, .inl rfl))
    exact .inr sq(.inl rfl, sq(section_way _ _ _, sq(rfl, sq(.none, sq(.inr sq(section_way _ _ _, .inr u), rfl)))))
  have r0 : Reach (fun _ => True) [] [⟨[], [.call (.serve 0)]⟩] := .step _ _ .spawn .start trivial (.spawn [] _)
  have r1 := one r0 trivial (.call [] _ _ [] w)
  have r2 := one r1 trivial (.lock [] .conns true _ (by simp [Free]))
  have r2 := one r2 trivial (.acc _ _ _)
  have r3 := one r2 trivial (.unlock [] _ .conns true _ (by simp))
  have r4 := one r3 trivial (.hook _ .onClientConnected _ [.createSession 0] false (by simp [Fn.api]) (by simp))
  have r5 := one r4 trivial (.call _ _ _ _ (createWay_way 0))
  have r6 := one r5 trivial (.lock [] (.sess 0) true _ (by simp [Free]))
  have r6 := one r6 trivial (.acc _ _ _)
  have r7 := one r6 trivial (.hook _ .generate _ [] false (by simp) (by simp))
  have r7 := one r7 trivial (.acc _ _ _)
  have r8 := one r7 trivial (.lock _ .reg true _ (by simp [Free]))
  have r8 := one (one r8 trivial (.acc _ _ _)) trivial (.acc _ _ _)
  have r9 := one r8 trivial (.unlock [] _ .reg true _ (by simp))
  have r10 := one r9 trivial (.unlock [] _ (.sess 0) true _ (by simp))
  have r11 := one r10 trivial (.hook _ .onSessionCreated _ [] false (by simp) (by simp))
  have r12 := one r11 trivial (.ret _ _)
  have r13 := one r12 trivial (.lock _ (.state 0) true _ (by simp [Free]))
  have r13 := one r13 trivial (.acc _ _ _)
  have r14 := one r13 trivial (.unlock [] _ (.state 0) true _ (by simp))
  have r15 := closes r14 (by simp)
  exact ⟨_, _, _, _, r15, ⟨1, 0, by decide, rfl, rfl, rfl, rfl, rfl, .inl rfl⟩, rfl⟩

/-- The race of the error of `CreateSession`: the session there is, is closed at the same time. (The error's text then takes
the key of a session that may be nil.) -/
theorem race_refusal : ∃ s t u b, Reach (fun _ => True) [] s ∧ Race s t u (wr (.session 0)) b ∧ b.site = .refusal := by
  have w : createSession 0 [.lock (.sess 0) true, .acc (rd (.session 0)), .unlock (.sess 0), .acc (rd (.session 0) .refusal)] :=
    .inr (.inl sq(section_way _ _ _, rfl))
  have r0 : Reach (fun _ => True) [] [⟨[], [.call (.createSession 0)]⟩] := .step _ _ .spawn .start trivial (.spawn [] _)
  have r1 := one r0 trivial (.call [] _ _ [] w)
  have r2 := one r1 trivial (.lock [] (.sess 0) true _ (by simp [Free]))
  have r2 := one r2 trivial (.acc _ _ _)
  have r3 := one r2 trivial (.unlock [] _ (.sess 0) true _ (by simp))
  have r4 := closes r3 (by simp)
  exact ⟨_, _, _, _, r4, ⟨1, 0, by decide, rfl, rfl, rfl, rfl, rfl, .inl rfl⟩, rfl⟩

/-- The race of `register`: connection 0 restores a session another connection has, too, and user code closes it. -/
theorem race_register : ∃ s t u b, Reach (fun _ => True) [] s ∧ Race s t u (wr (.session 0)) b ∧ b.site = .register := by
  have w : serve 0 [.lock .conns true, .acc (wr .conns), .unlock .conns, .hook .onClientConnected,
      .lock (.state 0) false, .acc (rd (.state 0)), .unlock (.state 0), .lock .ops true, .acc (wr .ops), .unlock .ops,
      .lock (.state 0) true, .acc (wr (.state 0)), .unlock (.state 0),
      .lock .reg false, .acc (rd .registry), .unlock .reg, .hook .onSessionLookup,
      .lock (.sess 0) true, .acc (wr (.session 0)), .unlock (.sess 0),
      .lock .reg true, .acc (rd (.session 0) .register), .acc (wr .registry), .unlock .reg,
      .lock .ops true, .acc (wr .ops), .unlock .ops, .lock (.state 0) true, .acc (wr (.state 0)), .unlock (.state 0),
      .lock (.state 0) true, .acc (wr (.state 0)), .unlock (.state 0), .hook .onClientDisconnected] := by
    have m : handleMessage 0 [.lock (.state 0) false, .acc (rd (.state 0)), .unlock (.state 0), .lock .ops true,
        .acc (wr .ops), .unlock .ops, .lock (.state 0) true, .acc (wr (.state 0)), .unlock (.state 0),
        .lock .reg false, .acc (rd .registry), .unlock .reg, .hook .onSessionLookup,
        .lock (.sess 0) true, .acc (wr (.session 0)), .unlock (.sess 0),
        .lock .reg true, .acc (rd (.session 0) .register), .acc (wr .registry), .unlock .reg,
        .lock .ops true, .acc (wr .ops), .unlock .ops, .lock (.state 0) true, .acc (wr (.state 0)), .unlock (.state 0)] :=
      .inr (.inr sq(sq(section_way _ _ _, sq(section_way _ _ _, section_way _ _ _)), .inr (.inr (.inl
        sq(.inr (.inr (.inr sq(section_way _ _ _, sq(rfl, sq(.none, sq(section_way _ _ _, sq(section_way _ _ _, .inl rfl)))))))
          , sq(section_way _ _ _, sq(section_way _ _ _, .inl rfl)))))))
    exact .inr sq(.inl rfl, sq(section_way _ _ _, sq(rfl, sq(.more _ _ m .none, sq(.inr sq(section_way _ _ _, .inl rfl), rfl)))))
  have r0 : Reach (fun _ => True) [] [⟨[], [.call (.serve 0)]⟩] := .step _ _ .spawn .start trivial (.spawn [] _)
  have r1 := one r0 trivial (.call [] _ _ [] w)
  have r2 := one r1 trivial (.lock [] .conns true _ (by simp [Free]))
  have r2 := one r2 trivial (.acc _ _ _)
  have r3 := one r2 trivial (.unlock [] _ .conns true _ (by simp))
  have r4 := one r3 trivial (.hook _ .onClientConnected _ [] false (by simp) (by simp))
  have r5 := one r4 trivial (.lock _ (.state 0) false _ (by simp [Free, Thread.wantsWrite]))
  have r5 := one r5 trivial (.acc _ _ _)
  have r5 := one r5 trivial (.unlock [] _ (.state 0) false _ (by simp))
  have r6 := one r5 trivial (.lock _ .ops true _ (by simp [Free]))
  have r6 := one r6 trivial (.acc _ _ _)
  have r6 := one r6 trivial (.unlock [] _ .ops true _ (by simp))
  have r7 := one r6 trivial (.lock _ (.state 0) true _ (by simp [Free]))
  have r7 := one r7 trivial (.acc _ _ _)
  have r7 := one r7 trivial (.unlock [] _ (.state 0) true _ (by simp))
  have r8 := one r7 trivial (.lock _ .reg false _ (by simp [Free, Thread.wantsWrite]))
  have r8 := one r8 trivial (.acc _ _ _)
  have r8 := one r8 trivial (.unlock [] _ .reg false _ (by simp))
  have r9 := one r8 trivial (.hook _ .onSessionLookup _ [] false (by simp) (by simp))
  have r10 := one r9 trivial (.lock _ (.sess 0) true _ (by simp [Free]))
  have r10 := one r10 trivial (.acc _ _ _)
  have r10 := one r10 trivial (.unlock [] _ (.sess 0) true _ (by simp))
  have r11 := closes r10 (by simp)
  have r12 := first r11 trivial (.lock _ .reg true _ (by simp [Free]))
  exact ⟨_, _, _, _, r12, ⟨1, 0, by decide, rfl, rfl, rfl, rfl, rfl, .inl rfl⟩, rfl⟩

/-- C87 does not hold: each of the three places `C87_partial` leaves open has a data race. -/
theorem C87_violated : ¬ C87_full ∧ ∀ k : Site, k ≠ .other →
    ∃ s t u a b, Reach (fun _ => True) [] s ∧ Race s t u a b ∧ b.site = k := by
  constructor
  · intro hf
    obtain ⟨s, t, u, b, h, hr, -⟩ := race_deregister
    exact hf s h t u _ b hr
  · intro k hk
    cases k with
    | register => obtain ⟨s, t, u, b, h⟩ := race_register; exact ⟨s, t, u, _, b, h⟩
    | deregister => obtain ⟨s, t, u, b, h⟩ := race_deregister; exact ⟨s, t, u, _, b, h⟩
    | refusal => obtain ⟨s, t, u, b, h⟩ := race_refusal; exact ⟨s, t, u, _, b, h⟩
    | other => exact absurd rfl hk

end Webwire.Locks
