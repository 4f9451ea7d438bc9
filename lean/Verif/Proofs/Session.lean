import Verif.Proofs.Connection

/-!
Helper lemmas: invariants of the session registry over histories.
-/

set_option autoImplicit false

namespace Webwire
open Spec

variable {ν υ : Type} {srv : Server ν υ} {ow : Bool}

theorem Frame.handleConnection {R : World ν υ → World ν υ → Prop} (F : Frame srv R ow)
    (hacc : ∀ w c limit, w.conns c = {} → R w (w.upd c fun _ => { limit := limit, isActive := true }))
    {w w' : World ν υ} {c : ConnId} {limit : Int} (hf : w.conns c = {})
    (h : handleConnection srv w c limit [] = .ok w') : R w w' := by
  have conf : ∀ {w1 e}, writeConfMessage srv w c = .ok (w1, e) → R w w1 ∧ w1.conns = w.conns := by
    intro w1 e h1
    rcases withWriter_ok h1 with ⟨net, er, hg, rfl, _⟩ | ⟨net, net', hg, hf, rfl⟩
    · exact ⟨F.getWriter w c net _ hg, rfl⟩
    · refine ⟨F.trans (F.getWriter w c net _ hg) (F.trans ?_ (F.log _ _ trivial rfl)), rfl⟩
      exact F.runParts (parts := [srv.configMsg]) (w := { w with net := net }) hf
  rcases handleConnection_ok h with ⟨w1, e, net, ce, h1, h2, rfl⟩ | ⟨w1, w2, h1, h2, h3⟩
  · obtain ⟨r1, e1⟩ := conf h1
    exact F.trans r1 (F.trans (F.close w1 c net ce (by rw [e1, hf]) h2) (F.log _ _ trivial rfl))
  · obtain ⟨r1, e1⟩ := conf h1
    simp only [Webwire.serve, Except.ok.injEq] at h3
    subst h3
    refine F.trans r1 (F.trans (hacc w1 c limit (by rw [e1, hf])) ?_)
    exact F.trans (F.hook _ (.onClientConnected c) _ trivial rfl) (F.runApis h2)

/-- A relation that all steps of a history respect. -/
theorem Frame.step {R : World ν υ → World ν υ → Prop} (F : Frame srv R ow)
    (hacc : ∀ w c limit, w.conns c = {} → R w (w.upd c fun _ => { limit := limit, isActive := true }))
    (hsd : ∀ w, R w { w with shutdown := true }) {w w' : World ν υ} (h : Step srv ow w w') : R w w' := by
  cases h with
  | accept _ c limit hf h => exact F.handleConnection hacc hf h
  | receive _ c i hi h =>
    rcases hi with rfl | hi
    · exact F.serve h
    · exact F.serve1 hi h
  | api _ a h => exact F.runApi h
  | shutdown => exact hsd w

/-- An invariant of all reachable states. -/
theorem Reachable.invariant {I : World ν υ → Prop} (F : Frame srv (fun w w' => I w → I w') ow)
    (hinit : ∀ w, Started w → I w)
    (hacc : ∀ w c limit, w.conns c = {} → I w → I (w.upd c fun _ => { limit := limit, isActive := true }))
    (hsd : ∀ w, I w → I { w with shutdown := true }) {w : World ν υ} (h : Reachable srv ow w) : I w := by
  induction h with
  | start w h => exact hinit w h
  | step w w' _ hs ih => exact F.step hacc hsd hs ih

/-! ## The parts of the world that matter -/

/-- Registry and sessions. -/
abbrev Reg := GoMap Bytes (List ConnId)

/-- An invariant of the registry, the sessions and the user's state is respected by the whole server if it is by
the three ways in which these change. -/
theorem sessionFrame {J : Reg → (ConnId → Option Session) → υ → Prop}
    (huser : ∀ r f u u', UserStep srv.hooks u u' → J r f u → J r f u')
    (hleave : ∀ r f u c s, J r f u → f c = some s →
      J (registryRemove r s.key c).1 (fun i => if i = c then none else f i) u)
    (hcreate : ∀ r f u c s, srv.sessionsEnabled = true → J r f u → f c = none →
      s.key = (srv.hooks.generateKey u).2 →
      J (registryAdd srv.maxConns r s.key c).1 (fun i => if i = c then some s else f i) (srv.hooks.generateKey u).1)
    (hrestore : ∀ r f u c s, srv.sessionsEnabled = true → J r f u → (ow = false → f c = none) →
      (∃ u0 x, srv.hooks.onSessionLookup u0 s.key = (u, .ok (some x))) →
      (registryAdd srv.maxConns r s.key c).2 = none →
      J (registryAdd srv.maxConns r s.key c).1 (fun i => if i = c then some s else f i) u) :
    Frame srv (fun w w' => J w.registry (fun i => (w.conns i).session) w.user →
      J w'.registry (fun i => (w'.conns i).session) w'.user) ow where
  refl _ := id
  trans h h' := h' ∘ h
  getWriter _ _ _ _ _ := id
  write _ _ _ _ _ _ := id
  flush _ _ _ _ _ := id
  close _ _ _ _ _ _ := id
  generate _ := huser _ _ _ _ (.generate _)
  event w e u _ hu := by
    rcases called_step hu with rfl | hu
    · exact id
    · exact huser _ _ _ _ hu
  conn w c f hf := by
    intro h
    have : (fun i => ((w.upd c f).conns i).session) = fun i => (w.conns i).session := by
      funext i
      simp only [World.upd]
      split_ifs with hi
      · subst hi; exact (hf _).1
      · rfl
    rw [this]; exact h
  ops _ _ _ := id
  leave w c d w1 n _ hd h := by
    have es : (fun i => ((setSession w1 c none).conns i).session) =
        fun i => if i = c then none else (w1.conns i).session := by
      funext i
      simp only [setSession, World.upd]
      split_ifs <;> rfl
    rw [es]
    rcases deregister_ok hd with ⟨hn, rfl, _⟩ | ⟨s, hs, _, ⟨_, rfl⟩ | ⟨_, _, _, rfl⟩⟩
    · have : (fun i => if i = c then none else (w1.conns i).session) = fun i => (w1.conns i).session := by
        funext i
        split_ifs with hi
        · subst hi; exact hn.symm
        · rfl
      rw [this]; exact h
    · exact hleave _ _ _ c s h hs
    · exact huser _ _ _ _ (.closed _ _) (hleave _ _ _ c s h hs)
  create w w1 c s w2 e hse hnone hk _ e1 e2 e3 hr h := by
    obtain ⟨s', hs', rfl, _⟩ := register_ok hr
    have e0 : s' = s := by
      simp only [setSession, World.upd, if_true, Option.some.injEq] at hs'
      exact hs'.symm
    subst e0
    have es : (fun i => ((setSession w1 c (some s')).conns i).session) =
        fun i => if i = c then some s' else (w.conns i).session := by
      funext i
      simp only [setSession, World.upd, e2]
      split_ifs <;> rfl
    show J (registryAdd srv.maxConns w1.registry s'.key c).1 (fun i => ((setSession w1 c (some s')).conns i).session) w1.user
    rw [es, e1, e3]
    exact hcreate _ _ _ c s' hse h hnone hk
  restore w c s w1 hse _ hn hl hr h := by
    obtain ⟨s', hs', rfl, he⟩ := register_ok hr
    have e0 : s' = s := by
      simp only [setSession, World.upd, if_true, Option.some.injEq] at hs'
      exact hs'.symm
    subst e0
    have es : (fun i => ((setSession w c (some s')).conns i).session) =
        fun i => if i = c then some s' else (w.conns i).session := by
      funext i
      simp only [setSession, World.upd]
      split_ifs <;> rfl
    show J (registryAdd srv.maxConns w.registry s'.key c).1 (fun i => ((setSession w c (some s')).conns i).session) w.user
    rw [es]
    exact hrestore _ _ _ c s' hse h hn hl he.symm

/-- Reachable states satisfy such an invariant. -/
theorem Reachable.sessionInvariant (J : Reg → (ConnId → Option Session) → υ → Prop)
    (huser : ∀ r f u u', UserStep srv.hooks u u' → J r f u → J r f u')
    (hleave : ∀ r f u c s, J r f u → f c = some s →
      J (registryRemove r s.key c).1 (fun i => if i = c then none else f i) u)
    (hcreate : ∀ r f u c s, srv.sessionsEnabled = true → J r f u → f c = none →
      s.key = (srv.hooks.generateKey u).2 →
      J (registryAdd srv.maxConns r s.key c).1 (fun i => if i = c then some s else f i) (srv.hooks.generateKey u).1)
    (hrestore : ∀ r f u c s, srv.sessionsEnabled = true → J r f u → (ow = false → f c = none) →
      (∃ u0 x, srv.hooks.onSessionLookup u0 s.key = (u, .ok (some x))) →
      (registryAdd srv.maxConns r s.key c).2 = none →
      J (registryAdd srv.maxConns r s.key c).1 (fun i => if i = c then some s else f i) u)
    (hinit : ∀ u, J [] (fun _ => none) u) {w : World ν υ} (h : Reachable srv ow w) :
    J w.registry (fun i => (w.conns i).session) w.user := by
  refine Reachable.invariant (I := fun w => J w.registry (fun i => (w.conns i).session) w.user)
    (sessionFrame (J := J) huser hleave hcreate hrestore) ?_ ?_ ?_ h
  · intro w hw
    have e : (fun i => (w.conns i).session) = fun _ => none := by funext i; rw [hw.conns i]
    rw [e, hw.registry]
    exact hinit _
  · intro w c limit hf hj
    have : (fun i => ((w.upd c fun _ => { limit := limit, isActive := true }).conns i).session) =
        fun i => (w.conns i).session := by
      funext i
      simp only [World.upd]
      split_ifs with hi
      · subst hi; rw [hf]
      · rfl
    rw [this]; exact hj
  · exact fun w hj => hj

/-! ## Registry invariants -/

/-- Sets of registered connections are nonempty, without duplicates and within the limit. -/
structure RegOk (maxConns : Nat) (r : Reg) : Prop where
  wf : r.WF
  ok : ∀ k set, r.get k = some set → set ≠ [] ∧ set.Nodup ∧ (maxConns > 0 → set.length ≤ maxConns)

theorem setInsert_nodup {l : List ConnId} {c : ConnId} (h : l.Nodup) : (setInsert l c).Nodup := by
  unfold setInsert
  split_ifs with hc
  · exact h
  · exact List.nodup_cons.mpr ⟨hc, h⟩

theorem mem_setInsert {l : List ConnId} {c x : ConnId} : x ∈ setInsert l c ↔ x = c ∨ x ∈ l := by
  unfold setInsert
  split_ifs with hc
  · constructor
    · exact .inr
    · rintro (rfl | h)
      · exact hc
      · exact h
  · simp

theorem setInsert_length {l : List ConnId} {c : ConnId} : (setInsert l c).length ≤ l.length + 1 := by
  unfold setInsert
  split_ifs <;> simp

theorem mem_setDelete {l : List ConnId} {c x : ConnId} : x ∈ setDelete l c ↔ x ∈ l ∧ x ≠ c := by
  simp [setDelete]

theorem setDelete_nodup {l : List ConnId} {c : ConnId} (h : l.Nodup) : (setDelete l c).Nodup :=
  h.sublist List.filter_sublist

theorem setDelete_length {l : List ConnId} {c : ConnId} : (setDelete l c).length ≤ l.length :=
  List.length_filter_le _ _

theorem setDelete_ne_nil {l : List ConnId} {c : ConnId} (hn : l.Nodup) (hl : ¬ l.length < 2) : setDelete l c ≠ [] := by
  intro h
  match l, hl with
  | a :: b :: t, _ =>
    have hab : a ≠ b := by
      intro e; subst e; simp at hn
    have ha : a ∉ setDelete (a :: b :: t) c := by rw [h]; simp
    have hb : b ∉ setDelete (a :: b :: t) c := by rw [h]; simp
    rw [mem_setDelete] at ha hb
    have h1 : a = c := by by_contra hx; exact ha ⟨by simp, hx⟩
    have h2 : b = c := by by_contra hx; exact hb ⟨by simp, hx⟩
    exact hab (h1.trans h2.symm)
  | [], hl => simp at hl
  | [a], hl => simp at hl

theorem RegOk.nil (n : Nat) : RegOk n [] := ⟨GoMap.wf_nil, by simp [GoMap.get]⟩

theorem RegOk.add {n : Nat} {r : Reg} (h : RegOk n r) (k : Bytes) (c : ConnId) : RegOk n (registryAdd n r k c).1 := by
  unfold registryAdd
  cases hg : r.get k with
  | none =>
    refine ⟨GoMap.wf_set h.wf _ _, fun k' set hs => ?_⟩
    simp only [GoMap.get_set] at hs
    split_ifs at hs
    · cases hs
      exact ⟨by simp, by simp, fun hp => by simp; omega⟩
    · exact h.ok k' set hs
  | some l =>
    simp only
    split_ifs with hc
    · exact h
    · refine ⟨GoMap.wf_set h.wf _ _, fun k' set hs => ?_⟩
      simp only [GoMap.get_set] at hs
      split_ifs at hs
      · cases hs
        obtain ⟨h1, h2, h3⟩ := h.ok k l hg
        refine ⟨?_, setInsert_nodup h2, fun hp => ?_⟩
        · intro he
          have : c ∈ setInsert l c := mem_setInsert.mpr (.inl rfl)
          rw [he] at this; simp at this
        · have := setInsert_length (l := l) (c := c)
          omega
      · exact h.ok k' set hs

theorem RegOk.remove {n : Nat} {r : Reg} (h : RegOk n r) (k : Bytes) (c : ConnId) : RegOk n (registryRemove r k c).1 := by
  unfold registryRemove
  cases hg : r.get k with
  | none => exact h
  | some l =>
    simp only
    split_ifs with hc
    · refine ⟨GoMap.wf_del h.wf _, fun k' set hs => ?_⟩
      simp only [GoMap.get_del] at hs
      split_ifs at hs
      exact h.ok k' set hs
    · refine ⟨GoMap.wf_set h.wf _ _, fun k' set hs => ?_⟩
      simp only [GoMap.get_set] at hs
      split_ifs at hs
      · cases hs
        obtain ⟨h1, h2, h3⟩ := h.ok k l hg
        refine ⟨setDelete_ne_nil h2 hc, setDelete_nodup h2, fun hp => ?_⟩
        have := setDelete_length (l := l) (c := c)
        have := h3 hp
        omega
      · exact h.ok k' set hs

theorem regOkFrame : Frame srv (fun w w' => RegOk srv.maxConns w.registry → RegOk srv.maxConns w'.registry) ow :=
  sessionFrame (J := fun r _ _ => RegOk srv.maxConns r) (fun _ _ _ _ _ h => h) (fun _ _ _ _ _ h _ => h.remove _ _)
    (fun _ _ _ _ _ _ h _ _ => h.add _ _) (fun _ _ _ _ _ _ h _ _ _ => h.add _ _)

theorem reachable_regOk {w : World ν υ} (h : Reachable srv ow w) : RegOk srv.maxConns w.registry :=
  Reachable.sessionInvariant (fun r _ _ => RegOk srv.maxConns r) (fun _ _ _ _ _ h => h)
    (fun _ _ _ _ _ h _ => h.remove _ _) (fun _ _ _ _ _ _ h _ _ => h.add _ _)
    (fun _ _ _ _ _ _ h _ _ _ => h.add _ _) (fun _ => RegOk.nil _) h

/-- No stale entries. -/
def RegSub (r : Reg) (f : ConnId → Option Session) : Prop :=
  ∀ k set c, r.get k = some set → c ∈ set → ∃ s, f c = some s ∧ s.key = k

/-- No missing entries. -/
def RegSup (r : Reg) (f : ConnId → Option Session) : Prop :=
  ∀ c s, f c = some s → ∃ set, r.get s.key = some set ∧ c ∈ set

theorem registryAdd_get {n : Nat} {r : Reg} {k : Bytes} {c : ConnId} (k' : Bytes) :
    (registryAdd n r k c).1.get k' = if k = k' ∧ (registryAdd n r k c).2 = none
      then some (match r.get k with | some l => setInsert l c | none => [c]) else r.get k' := by
  unfold registryAdd
  cases hg : r.get k with
  | none => simp [GoMap.get_set]
  | some l =>
    simp only
    split_ifs with hc <;> simp_all [GoMap.get_set]

theorem registryRemove_get {r : Reg} {k : Bytes} {c : ConnId} (k' : Bytes) :
    (registryRemove r k c).1.get k' = if k = k' then (match r.get k with
      | some l => if l.length < 2 then none else some (setDelete l c) | none => none) else r.get k' := by
  unfold registryRemove
  cases hg : r.get k with
  | none =>
    simp only
    split_ifs with hk
    · rw [← hk]; exact hg
    · rfl
  | some l =>
    simp only
    split_ifs with hc hk hk <;> simp_all [GoMap.get_del, GoMap.get_set]

theorem RegSub.add {n : Nat} {r : Reg} {f : ConnId → Option Session} {c : ConnId} {s : Session} (h : RegSub r f)
    (hc : f c = none) : RegSub (registryAdd n r s.key c).1 (fun i => if i = c then some s else f i) := by
  have hno : ∀ k set, r.get k = some set → c ∉ set := by
    intro k set hg hm
    obtain ⟨s', hs, _⟩ := h k set c hg hm
    rw [hc] at hs; cases hs
  have old : ∀ k set i, r.get k = some set → i ∈ set → ∃ s', (if i = c then some s else f i) = some s' ∧ s'.key = k := by
    intro k set i hg hm
    have : i ≠ c := by rintro rfl; exact hno k set hg hm
    rw [if_neg this]; exact h k set i hg hm
  intro k set i hg hm
  rw [registryAdd_get] at hg
  split_ifs at hg with hk
  · obtain ⟨rfl, _⟩ := hk
    simp only [Option.some.injEq] at hg
    subst hg
    cases hgk : r.get s.key with
    | none =>
      rw [hgk] at hm
      simp only [List.mem_singleton] at hm
      subst hm
      exact ⟨s, by simp, rfl⟩
    | some l =>
      rw [hgk] at hm
      rcases mem_setInsert.mp hm with rfl | hm
      · exact ⟨s, by simp, rfl⟩
      · exact old _ _ _ hgk hm
  · exact old _ _ _ hg hm

theorem RegSub.remove {r : Reg} {f : ConnId → Option Session} {c : ConnId} {s : Session} (h : RegSub r f)
    (hc : f c = some s) : RegSub (registryRemove r s.key c).1 (fun i => if i = c then none else f i) := by
  intro k set i hg hm
  rw [registryRemove_get] at hg
  have keep : ∀ k set, r.get k = some set → i ∈ set → i ≠ c →
      ∃ s', (if i = c then none else f i) = some s' ∧ s'.key = k := by
    intro k set hg hm hi
    rw [if_neg hi]; exact h k set i hg hm
  split_ifs at hg with hk
  · subst hk
    cases hgk : r.get s.key with
    | none => rw [hgk] at hg; cases hg
    | some l =>
      rw [hgk] at hg
      simp only at hg
      split_ifs at hg
      cases hg
      rw [mem_setDelete] at hm
      exact keep _ _ hgk hm.1 hm.2
  · refine keep _ _ hg hm ?_
    rintro rfl
    obtain ⟨s', hs, hk'⟩ := h k set i hg hm
    rw [hc] at hs; cases hs
    exact hk hk'

theorem RegSup.add {n : Nat} {r : Reg} {f : ConnId → Option Session} {c : ConnId} {s : Session} (h : RegSup r f)
    (he : (registryAdd n r s.key c).2 = none) :
    RegSup (registryAdd n r s.key c).1 (fun i => if i = c then some s else f i) := by
  intro i s' hs
  rw [registryAdd_get]
  simp only at hs
  split_ifs at hs with hi
  · cases hs
    subst hi
    rw [if_pos ⟨rfl, he⟩]
    refine ⟨_, rfl, ?_⟩
    cases r.get s.key with
    | none => simp
    | some l => exact mem_setInsert.mpr (.inl rfl)
  · obtain ⟨set, hg, hm⟩ := h i s' hs
    split_ifs with hk
    · refine ⟨_, rfl, ?_⟩
      rw [hk.1, hg]
      exact mem_setInsert.mpr (.inr hm)
    · exact ⟨set, hg, hm⟩

theorem RegSup.remove {r : Reg} {f : ConnId → Option Session} {c : ConnId} {s : Session} (h : RegSup r f)
    (hc : f c = some s) : RegSup (registryRemove r s.key c).1 (fun i => if i = c then none else f i) := by
  intro i s' hs
  rw [registryRemove_get]
  simp only at hs
  split_ifs at hs with hi
  obtain ⟨set, hg, hm⟩ := h i s' hs
  split_ifs with hk
  · rw [hk, hg]
    simp only
    obtain ⟨set', hg', hm'⟩ := h c s hc
    rw [hk, hg] at hg'
    cases hg'
    split_ifs with hl
    · exfalso
      match set, hl, hm, hm' with
      | [a], _, hm, hm' =>
        simp only [List.mem_singleton] at hm hm'
        exact hi (hm.trans hm'.symm)
      | [], _, hm, _ => simp at hm
      | _ :: _ :: _, hl, _, _ => simp at hl; omega
    · exact ⟨_, rfl, mem_setDelete.mpr ⟨hm, hi⟩⟩
  · exact ⟨set, hg, hm⟩

theorem registryAdd_unlimited {r : Reg} {k : Bytes} {c : ConnId} : (registryAdd 0 r k c).2 = none := by
  unfold registryAdd
  split <;> simp

theorem registryAdd_fresh {n : Nat} {r : Reg} {k : Bytes} {c : ConnId} (h : r.get k = none) :
    (registryAdd n r k c).2 = none := by
  unfold registryAdd
  rw [h]

/-- Without overwriting restorations there are no stale entries. -/
theorem reachable_sub {w : World ν υ} (h : Reachable srv false w) :
    RegSub w.registry (fun i => (w.conns i).session) := by
  refine (Reachable.sessionInvariant (ow := false) (fun r f _ => RegOk srv.maxConns r ∧ RegSub r f)
    ?_ ?_ ?_ ?_ ?_ h).2
  · exact fun _ _ _ _ _ h => h
  · exact fun r f u c s h hs => ⟨h.1.remove _ _, h.2.remove hs⟩
  · exact fun r f u c s _ h hc _ => ⟨h.1.add _ _, h.2.add hc⟩
  · exact fun r f u c s _ h hc _ _ => ⟨h.1.add _ _, h.2.add (hc rfl)⟩
  · exact fun _ => ⟨RegOk.nil _, fun k set c hg => by simp [GoMap.get] at hg⟩

/-- Without a connection limit no entry is missing. -/
theorem reachable_sup_unlimited (hm : srv.maxConns = 0) {w : World ν υ} (h : Reachable srv ow w) :
    RegSup w.registry (fun i => (w.conns i).session) := by
  refine Reachable.sessionInvariant (fun r f _ => RegSup r f) ?_ ?_ ?_ ?_ ?_ h
  · exact fun _ _ _ _ _ h => h
  · exact fun r f u c s h hs => h.remove hs
  · exact fun r f u c s _ h hc _ => h.add (by rw [hm]; exact registryAdd_unlimited)
  · exact fun r f u c s _ h hc _ he => h.add he
  · exact fun _ c s h => by cases h

/-- With fresh keys no entry is missing. -/
theorem reachable_sup_fresh {issued : υ → Bytes → Prop} (hk : FreshKeys srv.hooks issued) {w : World ν υ}
    (h : Reachable srv ow w) : RegSup w.registry (fun i => (w.conns i).session) := by
  refine (Reachable.sessionInvariant (fun r f u => RegSup r f ∧ ∀ k, r.get k ≠ none → issued u k)
    ?_ ?_ ?_ ?_ ?_ h).1
  · exact fun r f u u' hu h => ⟨h.1, fun k hg => hk.grows _ _ _ hu (h.2 k hg)⟩
  · refine fun r f u c s h hs => ⟨h.1.remove hs, fun k hg => h.2 k ?_⟩
    intro hn
    apply hg
    rw [registryRemove_get]
    split_ifs with hkk
    · rw [hkk, hn]
    · exact hn
  · intro r f u c s _ h hc hkey
    have hn : r.get s.key = none := by
      by_contra hx
      have := h.2 _ hx
      rw [hkey] at this
      exact hk.fresh u this
    refine ⟨h.1.add (registryAdd_fresh hn), fun k hg => ?_⟩
    rw [registryAdd_get] at hg
    split_ifs at hg with hx
    · rw [← hx.1, hkey]; exact hk.recorded u
    · exact hk.grows _ _ _ (.generate _) (h.2 k hg)
  · intro r f u c s _ h hc ⟨u0, x, hl⟩ he
    refine ⟨h.1.add he, fun k hg => ?_⟩
    rw [registryAdd_get] at hg
    split_ifs at hg with hx
    · rw [← hx.1]
      have h1 : issued u0 s.key := hk.found u0 s.key x (by rw [hl])
      have h2 := hk.grows _ _ _ (.lookup u0 s.key) h1
      rw [hl] at h2; exact h2
    · exact h.2 k hg
  · exact fun _ => ⟨(fun c s h => by cases h), fun k hg => by simp [GoMap.get] at hg⟩

/-- What agreement means. -/
theorem agrees_of {w : World ν υ} {n : Nat} (h1 : RegOk n w.registry) (h2 : RegSub w.registry fun i => (w.conns i).session)
    (h3 : RegSup w.registry fun i => (w.conns i).session) : Agrees w := by
  have mem : ∀ k c, (∃ set, w.registry.get k = some set ∧ c ∈ set) ↔ Holds w c k := by
    intro k c
    constructor
    · rintro ⟨set, hg, hm⟩; exact h2 k set c hg hm
    · rintro ⟨s, hs, rfl⟩; exact h3 c s hs
  refine ⟨?_, ?_⟩
  · intro k order
    unfold sessionConnections
    cases hg : w.registry.get k with
    | none =>
      intro c hc
      obtain ⟨set, hg', _⟩ := (mem k c).mpr hc
      rw [hg] at hg'; cases hg'
    | some set =>
      have hset : set ≠ [] ∧ set.Nodup ∧ ∀ c, c ∈ set ↔ Holds w c k := by
        obtain ⟨a, b, _⟩ := h1.ok k set hg
        refine ⟨a, b, fun c => ?_⟩
        rw [← mem k c, hg]
        simp
      simp only
      split_ifs with hp
      · have hp := List.isPerm_iff.mp hp
        refine ⟨?_, hp.nodup_iff.mpr hset.2.1, fun c => by rw [hp.mem_iff]; exact hset.2.2 c⟩
        rintro rfl
        exact hset.1 (List.nil_perm.mp hp)
      · exact hset
  · intro keys hn hk
    unfold activeSessionsNum
    have : w.registry.keys.Perm keys := by
      rw [List.perm_ext_iff_of_nodup h1.wf hn]
      intro k
      rw [GoMap.mem_keys, hk k]
      constructor
      · intro hg
        cases hx : w.registry.get k with
        | none => exact absurd hx hg
        | some set =>
          obtain ⟨a, _, _⟩ := h1.ok k set hx
          obtain ⟨c, hc⟩ := List.exists_mem_of_ne_nil set a
          exact ⟨c, (mem k c).mp ⟨set, hx, hc⟩⟩
      · rintro ⟨c, hc⟩ hx
        obtain ⟨set, hg', _⟩ := (mem k c).mpr hc
        rw [hx] at hg'; cases hg'
    rw [← this.length_eq]
    simp [GoMap.keys]

end Webwire
