import Verif.Proofs.Session
import Verif.Proofs.SessionRaces5
import Verif.Spec.SessionOrder

/-!
Helper lemmas: what the server does one thing after the other (`Model/Server`) is among the executions of
`Model/SessionRaces`.
-/

set_option autoImplicit false

namespace Webwire.Races
open Spec

variable {ν υ : Type} {srv : Server ν υ} {ow : Bool}

/-- One goroutine at a time; without `ow` restorations only on connections without a session, and if `fresh` new sessions only
with keys that are not registered. -/
def Lone (ow : Bool) (fresh : Prop) (s : State) : Label → Prop
  | .call _ => s.threads = []
  | .thread pc _ => s.threads = [pc] ∧ (ow = false → ∀ c k, pc = .r3 c k → s.g.session c = none) ∧
      (fresh → ∀ c k, pc = .n1 c k → s.g.registry.get k = none)

theorem From.begin {ok : State → Label → Prop} {s : State} {g : G} (h : From ok s ⟨g, []⟩) (pc : PC) (hc : g.crashed = none)
    (he : pc.entry = true) (ho : ok ⟨g, []⟩ (.call pc)) : From ok s ⟨g, [pc]⟩ :=
  .step _ _ _ h ho (.call g [] pc hc he (by simp))

theorem From.go {ok : State → Label → Prop} {s : State} {g g' : G} {pc : PC} {pcs : List PC} (h : From ok s ⟨g, [pc]⟩)
    (ch : Choice) (hc : g.crashed = none) (hs : Snapshot g ch.order pc) (ho : ok ⟨g, [pc]⟩ (.thread pc ch))
    (ha : act g ch pc = some (g', pcs)) : From ok s ⟨g', pcs⟩ := by
  have := From.step _ _ _ h ho (.thread g g' [] [] pcs pc ch hc hs ha)
  simpa using this

theorem destroyedKeys_append (l l' : List Ev) : destroyedKeys (l ++ l') = destroyedKeys l ++ destroyedKeys l' := by
  simp [destroyedKeys]

/-- The execution of `Model/SessionRaces` that does the same. -/
structure Mirrors (srv : Server ν υ) (ow : Bool) (fresh : Prop) (w : World ν υ) (s : State) : Prop where
  reach : ReachableIf srv.maxConns (Lone ow fresh) s
  idle : s.threads = []
  crashed : s.g.crashed = none
  maxConns : s.g.maxConns = srv.maxConns
  unlocked : ∀ c, s.g.locked c = false
  registry : s.g.registry = w.registry
  session : ∀ c, s.g.session c = (w.conns c).session.map (·.key)
  closed : destroyedKeys s.g.log = closedKeys w.trace

theorem Mirrors.same {fresh : Prop} {w w' : World ν υ} {s : State} (h : Mirrors srv ow fresh w s)
    (hr : w'.registry = w.registry) (hs : ∀ c, (w'.conns c).session = (w.conns c).session)
    (ht : closedKeys w'.trace = closedKeys w.trace) : Mirrors srv ow fresh w' s :=
  { h with registry := by rw [h.registry, hr], session := fun c => by rw [h.session, hs], closed := by rw [h.closed, ht] }

/-- Being without a goroutine at work. -/
theorem Mirrors.from {fresh : Prop} {w : World ν υ} {s : State} (h : Mirrors srv ow fresh w s) :
    From (Lone ow fresh) (init srv.maxConns) ⟨s.g, []⟩ := by
  have := h.reach
  have e : s = ⟨s.g, []⟩ := by rw [← h.idle]
  rw [e] at this
  exact this

theorem not_special {pc : PC} {g : G} {ow : Bool} {fresh : Prop} {ch : Choice} (h1 : ∀ c k, pc ≠ .r3 c k)
    (h2 : ∀ c k, pc ≠ .n1 c k) : Lone ow fresh ⟨g, [pc]⟩ (.thread pc ch) :=
  ⟨rfl, fun _ c k e => absurd e (h1 c k), fun _ c k e => absurd e (h2 c k)⟩

/-- Ending a session without destroying it, or nothing if there is none. -/
theorem Mirrors.unlinked {fresh : Prop} {w : World ν υ} {s : State} (h : Mirrors srv ow fresh w s) (c : ConnId) {x : Session}
    (hx : (w.conns c).session = some x) : ∃ s', Mirrors srv ow fresh
      (setSession { w with registry := (registryRemove w.registry x.key c).1 } c none) s' := by
  have hsx : s.g.session c = some x.key := by rw [h.session, hx]; rfl
  have f1 := h.from.begin (.d1 c .unlink) h.crashed rfl rfl
  have f2 := f1.go {} h.crashed trivial (not_special nofun nofun)
    (show act s.g {} (.d1 c .unlink) = some (s.g, [.d2 c .unlink]) by simp [act, hsx])
  have f3 := f2.go {} h.crashed trivial (not_special nofun nofun)
    (show act s.g {} (.d2 c .unlink) = some ({ s.g with registry := (registryRemove s.g.registry x.key c).1 }, [.u2 c]) by
      simp [act, hsx, Cont.destroys, Cont.next])
  have f4 := f3.go {} h.crashed trivial (not_special nofun nofun)
    (show act _ {} (.u2 c) = some _ by
      simp only [act]
      rw [if_neg (by simp [h.unlocked c])])
  refine ⟨_, ⟨f4, rfl, h.crashed, h.maxConns, h.unlocked, ?_, ?_, ?_⟩⟩
  · show (registryRemove s.g.registry x.key c).1 = _
    rw [h.registry]; rfl
  · intro i
    simp only [G.emit, G.setSession, Function.update_apply, setSession, World.upd, h.session i]
    split_ifs <;> rfl
  · simp only [G.emit, G.setSession, destroyedKeys_append, h.closed]
    simp [destroyedKeys, setSession, World.upd]

/-- Closing a session. -/
theorem Mirrors.closedSession {fresh : Prop} {w : World ν υ} {s : State} (h : Mirrors srv ow fresh w s) (c : ConnId) {x : Session}
    (hx : (w.conns c).session = some x) {w1 : World ν υ} {n : Int} (hd : deregister srv w c true = .ok (w1, n)) :
    ∃ s', Mirrors srv ow fresh (setSession w1 c none) s' := by
  have hsx : s.g.session c = some x.key := by rw [h.session, hx]; rfl
  have f1 := h.from.begin (.x1 c []) h.crashed rfl rfl
  have f2 := f1.go {} h.crashed trivial (not_special nofun nofun)
    (show act s.g {} (.x1 c []) = some (s.g.setLock c true, [.d1 c (.close [])]) by simp [act, hsx, h.unlocked c])
  have f3 := f2.go {} h.crashed trivial (not_special nofun nofun)
    (show act (s.g.setLock c true) {} (.d1 c (.close [])) = some (s.g.setLock c true, [.d2 c (.close [])]) by
      simp [act, G.setLock, hsx])
  have last : ∀ {g : G}, From (Lone ow fresh) (init srv.maxConns) ⟨g, [.x2 c []]⟩ → g.crashed = none →
      From (Lone ow fresh) (init srv.maxConns) ⟨((g.setSession c none).setLock c false).emit .closeEnd, []⟩ :=
    fun f hc => f.go {} hc trivial (not_special nofun nofun) rfl
  rcases deregister_ok hd with ⟨hn, _, _⟩ | ⟨x', hx', _, hw⟩
  · rw [hx] at hn; cases hn
  · rw [hx] at hx'
    cases hx'
    rcases hw with ⟨hr, rfl⟩ | ⟨hr, _, _, rfl⟩
    · have f4 := f3.go {} h.crashed trivial (not_special nofun nofun)
        (show act (s.g.setLock c true) {} (.d2 c (.close [])) =
          some ({ s.g.setLock c true with registry := (registryRemove s.g.registry x.key c).1 }, [.x2 c []]) by
            have : (registryRemove s.g.registry x.key c).2.2 = false := by
              rw [h.registry]; rcases hr with hr | hr
              · exact hr
              · cases hr
            simp [act, G.setLock, hsx, Cont.destroys, Cont.next, this])
      refine ⟨_, ⟨last f4 h.crashed, rfl, h.crashed, h.maxConns, ?_, ?_, ?_, ?_⟩⟩
      · intro i
        simp only [G.emit, G.setSession, G.setLock, Function.update_apply]
        split_ifs
        · rfl
        · exact h.unlocked i
      · show (registryRemove s.g.registry x.key c).1 = _
        rw [h.registry]; rfl
      · intro i
        simp only [G.emit, G.setSession, G.setLock, Function.update_apply, setSession, World.upd, h.session i]
        split_ifs <;> rfl
      · simp only [G.emit, G.setSession, G.setLock, destroyedKeys_append, h.closed]
        simp [destroyedKeys, setSession, World.upd]
    · have f4 := f3.go {} h.crashed trivial (not_special nofun nofun)
        (show act (s.g.setLock c true) {} (.d2 c (.close [])) =
          some ({ s.g.setLock c true with registry := (registryRemove s.g.registry x.key c).1 }, [.d3 c (.close [])]) by
            have : (registryRemove s.g.registry x.key c).2.2 = true := by rw [h.registry]; exact hr
            simp [act, G.setLock, hsx, Cont.destroys, this])
      have f5 := f4.go {} h.crashed trivial (not_special nofun nofun)
        (show act { s.g.setLock c true with registry := (registryRemove s.g.registry x.key c).1 } {} (.d3 c (.close [])) =
          some (G.emit { s.g.setLock c true with registry := (registryRemove s.g.registry x.key c).1 } (.destroyed x.key),
            [.x2 c []]) by
            simp [act, G.setLock, hsx, Cont.next])
      refine ⟨_, ⟨last f5 h.crashed, rfl, h.crashed, h.maxConns, ?_, ?_, ?_, ?_⟩⟩
      · intro i
        simp only [G.emit, G.setSession, G.setLock, Function.update_apply]
        split_ifs
        · rfl
        · exact h.unlocked i
      · show (registryRemove s.g.registry x.key c).1 = _
        rw [h.registry]; rfl
      · intro i
        simp only [G.emit, G.setSession, G.setLock, Function.update_apply, setSession, World.upd, World.log, h.session i]
        split_ifs <;> rfl
      · simp only [G.emit, G.setSession, G.setLock, destroyedKeys_append, h.closed]
        simp [destroyedKeys, setSession, World.upd, World.log, closedKeys]

/-- A new session. -/
theorem Mirrors.created {fresh : Prop} {w : World ν υ} {s : State} (h : Mirrors srv ow fresh w s) (c : ConnId) (x : Session)
    (hn : (w.conns c).session = none) (hf : fresh → w.registry.get x.key = none) :
    ∃ s', Mirrors srv ow fresh
      { setSession w c (some x) with registry := (registryAdd srv.maxConns w.registry x.key c).1 } s' := by
  have hsn : s.g.session c = none := by rw [h.session, hn]; rfl
  have f1 := h.from.begin (.n1 c x.key) h.crashed rfl rfl
  have f2 := f1.go {} h.crashed trivial
    ⟨rfl, nofun, fun hfr c' k e => by cases e; rw [h.registry]; exact hf hfr⟩
    (show act s.g {} (.n1 c x.key) = some (s.g.setLock c true, [.n3 c x.key]) by simp [act, hsn, h.unlocked c])
  have f3 := f2.go {} h.crashed trivial (not_special nofun nofun)
    (show act (s.g.setLock c true) {} (.n3 c x.key) =
      some (((s.g.setLock c true).setSession c (some x.key)).emit (.told c x.key), [.n4 c x.key]) by simp [act])
  have f4 := f3.go {} h.crashed trivial (not_special nofun nofun)
    (show act (((s.g.setLock c true).setSession c (some x.key)).emit (.told c x.key)) {} (.n4 c x.key) =
      some (({ ((s.g.setLock c true).setSession c (some x.key)).emit (.told c x.key) with
        registry := (registryAdd s.g.maxConns s.g.registry x.key c).1 }.setLock c false).emit (.registered c x.key),
        [.n5 c x.key]) by
      simp [act, G.emit, G.setSession, G.setLock])
  have f5 := f4.go {} h.crashed trivial (not_special nofun nofun)
    (show act _ {} (.n5 c x.key) = some _ by
      simp only [act]
      rw [if_neg (by simp [G.emit, G.setLock])])
  have f6 := f5.go { fails := true } h.crashed trivial (not_special nofun nofun)
    (show act _ { fails := true } (.n6 c x.key) = some _ by
      simp only [act]
      rw [if_neg (by simp [G.emit, G.setLock]), if_pos trivial])
  have f7 := f6.go {} h.crashed trivial (not_special nofun nofun) (show act _ {} (.n7 c x.key) = some _ from rfl)
  refine ⟨_, ⟨f7, rfl, h.crashed, h.maxConns, ?_, ?_, ?_, ?_⟩⟩
  · intro i
    simp only [G.emit, G.setSession, G.setLock, Function.update_apply]
    split_ifs
    · rfl
    · exact h.unlocked i
  · show (registryAdd s.g.maxConns s.g.registry x.key c).1 = _
    rw [h.registry, h.maxConns]
  · intro i
    simp only [G.emit, G.setSession, G.setLock, Function.update_apply, setSession, World.upd, h.session i]
    split_ifs <;> rfl
  · simp only [G.emit, G.setSession, G.setLock, destroyedKeys_append, h.closed]
    simp [destroyedKeys, setSession, World.upd]

/-- A restored session. -/
theorem Mirrors.restored {fresh : Prop} {w : World ν υ} {s : State} (h : Mirrors srv ow fresh w s) (c : ConnId) (x : Session)
    (hn : ow = false → (w.conns c).session = none) (ht : ¬ tooMany srv w x.key)
    (he : (registryAdd srv.maxConns w.registry x.key c).2 = none) :
    ∃ s', Mirrors srv ow fresh
      { setSession w c (some x) with registry := (registryAdd srv.maxConns w.registry x.key c).1 } s' := by
  have f1 := h.from.begin (.r1 c x.key) h.crashed rfl rfl
  have f2 := f1.go {} h.crashed trivial (not_special nofun nofun)
    (show act s.g {} (.r1 c x.key) = some (s.g, [.r2 c x.key]) by
      simp only [act]
      rw [h.registry]
      cases hg : w.registry.get x.key with
      | none => rfl
      | some set =>
        refine if_neg fun hm => ht ?_
        rw [h.maxConns] at hm
        unfold tooMany sessionConnectionsNum
        rw [hg]
        exact ⟨Int.natCast_nonneg _, hm.1, by
          have := hm.2
          show ((set.length : Int) + 1).toNat > srv.maxConns
          omega⟩)
  have f3 := f2.go {} h.crashed trivial (not_special nofun nofun)
    (show act s.g {} (.r2 c x.key) = some (s.g, [.r3 c x.key]) from rfl)
  have f4 := f3.go {} h.crashed trivial
    ⟨rfl, fun ho c' k e => by cases e; rw [h.session, hn ho]; rfl, nofun⟩
    (show act s.g {} (.r3 c x.key) = some (s.g.setSession c (some x.key), [.r4 c x.key]) by simp [act, h.unlocked c])
  have f5 := f4.go {} h.crashed trivial (not_special nofun nofun)
    (show act (s.g.setSession c (some x.key)) {} (.r4 c x.key) =
      some (G.emit { s.g.setSession c (some x.key) with registry := (registryAdd s.g.maxConns s.g.registry x.key c).1 }
        (.restoreEnd c x.key .restored), []) by
      have : registryAdd s.g.maxConns s.g.registry x.key c = ((registryAdd s.g.maxConns s.g.registry x.key c).1, none) := by
        rw [h.registry, h.maxConns]; exact Prod.ext rfl he
      simp only [act, G.setSession, Function.update_self]
      rw [this])
  refine ⟨_, ⟨f5, rfl, h.crashed, h.maxConns, h.unlocked, ?_, ?_, ?_⟩⟩
  · show (registryAdd s.g.maxConns s.g.registry x.key c).1 = _
    rw [h.registry, h.maxConns]
  · intro i
    simp only [G.emit, G.setSession, Function.update_apply, setSession, World.upd, h.session i]
    split_ifs <;> rfl
  · simp only [G.emit, G.setSession, destroyedKeys_append, h.closed]
    simp [destroyedKeys, setSession, World.upd]

/-- What is kept in step: the mirroring execution, and that registered keys were issued. -/
def Kept (srv : Server ν υ) (ow : Bool) (fresh : Prop) (issued : υ → Bytes → Prop) (w : World ν υ) : Prop :=
  (∃ s, Mirrors srv ow fresh w s) ∧ (fresh → ∀ k, w.registry.get k ≠ none → issued w.user k)

theorem closedKeys_log (w : World ν υ) (e : Webwire.Ev) (h : ∀ k, e ≠ .onSessionClosed k) :
    closedKeys (w.log e).trace = closedKeys w.trace := by
  simp only [World.log, closedKeys, List.filterMap_append]
  cases e <;> simp_all

theorem keptFrame {fresh : Prop} {issued : υ → Bytes → Prop} (hk : fresh → Spec.FreshKeys srv.hooks issued) :
    Frame srv (fun w w' => Kept srv ow fresh issued w → Kept srv ow fresh issued w') ow where
  refl _ := id
  trans h h' := h' ∘ h
  getWriter _ _ _ _ _ := fun ⟨⟨s, h⟩, hi⟩ => ⟨⟨s, h.same rfl (fun _ => rfl) rfl⟩, hi⟩
  write _ _ _ _ _ _ := fun ⟨⟨s, h⟩, hi⟩ => ⟨⟨s, h.same rfl (fun _ => rfl) rfl⟩, hi⟩
  flush _ _ _ _ _ := fun ⟨⟨s, h⟩, hi⟩ => ⟨⟨s, h.same rfl (fun _ => rfl) rfl⟩, hi⟩
  close _ _ _ _ _ _ := fun ⟨⟨s, h⟩, hi⟩ => ⟨⟨s, h.same rfl (fun _ => rfl) rfl⟩, hi⟩
  generate _ := fun ⟨⟨s, h⟩, hi⟩ => ⟨⟨s, h.same rfl (fun _ => rfl) rfl⟩,
    fun hf k hg => (hk hf).grows _ _ _ (.generate _) (hi hf k hg)⟩
  event w e u hl hu := by
    rintro ⟨⟨s, h⟩, hi⟩
    refine ⟨⟨s, h.same rfl (fun _ => rfl) (closedKeys_log { w with user := u } e ?_)⟩, fun hf k hg => ?_⟩
    · rintro k rfl; exact hl
    · rcases called_step hu with rfl | hu
      · exact hi hf k hg
      · exact (hk hf).grows _ _ _ hu (hi hf k hg)
  conn w c f hf := by
    rintro ⟨⟨s, h⟩, hi⟩
    refine ⟨⟨s, h.same rfl (fun i => ?_) rfl⟩, hi⟩
    simp only [World.upd]
    split_ifs with hx
    · subst hx; exact (hf _).1
    · rfl
  ops _ _ _ := fun ⟨⟨s, h⟩, hi⟩ => ⟨⟨s, h.same rfl (fun _ => rfl) rfl⟩, hi⟩
  leave w c d w1 n _ hd := by
    rintro ⟨⟨s, h⟩, hi⟩
    have gone : ∀ (r : GoMap Bytes (List ConnId)) (x : Session) (k : Bytes),
        (registryRemove r x.key c).1.get k ≠ none → r.get k ≠ none := by
      intro r x k hg hn
      apply hg
      rw [registryRemove_get]
      split_ifs with hkk
      · rw [hkk, hn]
      · exact hn
    rcases deregister_ok hd with ⟨hn, rfl, _⟩ | ⟨x, hx, _, hw⟩
    · refine ⟨⟨s, h.same rfl (fun i => ?_) rfl⟩, hi⟩
      simp only [setSession, World.upd]
      split_ifs with hx
      · subst hx; exact hn.symm
      · rfl
    · cases d with
      | true =>
        refine ⟨h.closedSession c hx hd, fun hf k hg => ?_⟩
        rcases hw with ⟨_, rfl⟩ | ⟨_, _, _, rfl⟩
        · exact hi hf k (gone _ _ _ hg)
        · exact (hk hf).grows _ _ _ (.closed _ _) (hi hf k (gone _ _ _ hg))
      | false =>
        rcases hw with ⟨_, rfl⟩ | ⟨_, hw, _⟩
        · exact ⟨h.unlinked c hx, fun hf k hg => hi hf k (gone _ _ _ hg)⟩
        · cases hw
  create w w1 c x w2 e hse hnone hkey hr1 e1 e2 e3 hr := by
    rintro ⟨hm, hi⟩
    have hno : fresh → w.registry.get x.key = none := by
      intro hf
      by_contra hx
      have := hi hf _ hx
      rw [hkey] at this
      exact (hk hf).fresh _ this
    obtain ⟨⟨s, h⟩, _⟩ := hr1 ⟨hm, hi⟩
    obtain ⟨x', hx', rfl, _⟩ := register_ok hr
    have e0 : x' = x := by
      simp only [setSession, World.upd, if_true, Option.some.injEq] at hx'
      exact hx'.symm
    subst e0
    refine ⟨h.created c x' (by rw [e2]; exact hnone) (by rw [e1]; exact hno), fun hf k hg => ?_⟩
    change (registryAdd srv.maxConns w1.registry x'.key c).1.get k ≠ none at hg
    show issued w1.user k
    rw [e1, registryAdd_get] at hg
    rw [e3]
    split_ifs at hg with hx
    · rw [← hx.1, hkey]; exact (hk hf).recorded _
    · exact (hk hf).grows _ _ _ (.generate _) (hi hf k hg)
  restore w c x w1 hse ht hn hl hr := by
    rintro ⟨⟨s, h⟩, hi⟩
    obtain ⟨x', hx', rfl, he⟩ := register_ok hr
    have e0 : x' = x := by
      simp only [setSession, World.upd, if_true, Option.some.injEq] at hx'
      exact hx'.symm
    subst e0
    refine ⟨h.restored c x' hn ht he.symm, fun hf k hg => ?_⟩
    change (registryAdd srv.maxConns w.registry x'.key c).1.get k ≠ none at hg
    show issued w.user k
    rw [registryAdd_get] at hg
    split_ifs at hg with hx
    · obtain ⟨u0, r, hl⟩ := hl
      rw [← hx.1]
      have h1 : issued u0 x'.key := (hk hf).found u0 x'.key r (by rw [hl])
      have h2 := (hk hf).grows _ _ _ (.lookup u0 x'.key) h1
      rw [hl] at h2; exact h2
    · exact hi hf k hg

theorem kept_reachable {fresh : Prop} {issued : υ → Bytes → Prop} (hk : fresh → Spec.FreshKeys srv.hooks issued) {w : World ν υ}
    (h : Spec.Reachable srv ow w) : Kept srv ow fresh issued w := by
  refine Reachable.invariant (keptFrame hk) ?_ ?_ ?_ h
  · intro w hw
    refine ⟨⟨init srv.maxConns, .start, rfl, rfl, rfl, fun _ => rfl, hw.registry.symm, fun c => ?_, ?_⟩, fun _ k hg => ?_⟩
    · rw [hw.conns c]; rfl
    · rw [hw.trace]; rfl
    · rw [hw.registry] at hg; exact absurd rfl hg
  · rintro w c limit hc ⟨⟨s, h⟩, hi⟩
    refine ⟨⟨s, h.same rfl (fun i => ?_) rfl⟩, hi⟩
    simp only [World.upd]
    split_ifs with hx
    · subst hx; rw [hc]
    · rfl
  · rintro w ⟨⟨s, h⟩, hi⟩
    exact ⟨⟨s, h.same rfl (fun _ => rfl) rfl⟩, hi⟩

/-- A lone goroutine disturbs nobody. -/
theorem Lone.calm {fresh : Prop} {s : State} {l : Label} (hf : 0 < s.g.maxConns → fresh) (h : Lone false fresh s l) : Calm s l := by
  cases l with
  | call pc =>
    have ht : s.threads = [] := h
    refine ⟨⟨fun c _ a ha => ?_, fun c _ a ha => ?_, fun _ _ _ e => by cases e⟩, fun _ => trivial⟩ <;>
      (rw [ht] at ha; cases ha)
  | thread pc ch =>
    obtain ⟨ht, hr, hn⟩ := h
    refine ⟨⟨fun c hc a ha => ?_, nofun, fun c k ch e => ?_⟩, fun hm => ⟨fun k hk a ha => ?_, fun c k e => hn (hf hm) c k e⟩⟩
    · rw [ht, List.mem_singleton] at ha
      subst ha
      cases a <;> first | rfl | simp [Label.enters] at hc
    · cases e; exact hr rfl c k rfl
    · rw [ht, List.mem_singleton] at ha
      subst ha
      cases a <;> first | rfl | simp [PC.admits] at hk

end Webwire.Races
