import Verif.Proofs.SessionRaces4

/-!
# When sessions are destroyed, while operations overlap

Statement C79 of `properties.jsonl`, about `Model/SessionRaces`.
-/

set_option autoImplicit false

namespace Webwire.Races

/-! ## Only by closing -/

/-- C79: whatever sessions are created and restored and whatever connections end at the same time, no session is
destroyed as long as nobody closes one. -/
theorem C79_only_closing {n : Nat} {s : State} (h : ReachableIf n NoClosing s) (k : Bytes) :
    .destroyed k ∉ s.g.log := by
  suffices hs : (∀ a ∈ s.threads, a.spares = true) ∧ .destroyed k ∉ s.g.log from hs.2
  induction h with
  | start => simp [init]
  | step s1 l s2 _ hok hst ih =>
    cases hst with
    | thread g g' pre post pcs pc ch hc hsn ha =>
      have h1 := spares_acts (acts_of_act ha) (ih.1 pc (by simp))
      refine ⟨fun a hm => ?_, fun hm => ih.2 (h1.2 k hm)⟩
      simp only [List.mem_append] at hm
      rcases hm with hm | hm | hm
      · exact ih.1 a (by simp [hm])
      · exact h1.1 a hm
      · exact ih.1 a (by simp [hm])
    | call g ts pc hc he hw =>
      refine ⟨fun a hm => ?_, ih.2⟩
      rcases List.mem_cons.mp hm with rfl | hm
      · cases a <;> simp_all [PC.entry, PC.spares, NoClosing]
        rename_i κ
        cases κ <;> simp_all
      · exact ih.1 a hm

/-- The only connection of a session ends while another one restores it. -/
def endWhileRestoring : List Cmd :=
  [.call (.n1 0 [1]), .go 0, .go 0, .go 0, .go 0, .go 0, .go 0, .call (.r1 1 [1]), .go 0, .call (.d1 0 .unlink), .go 0, .go 0, .go 1,
   .go 0, .go 0, .go 0]

def noClosing (_ : State) : Label → Bool
  | .call (.k1 _) | .call (.x1 ..) | .call (.z1 _) => false
  | _ => true

theorem noClosing_ok (s : State) (l : Label) (h : noClosing s l = true) : NoClosing s l := by
  unfold noClosing at h
  split at h <;> simp_all [NoClosing]

example : ∃ s, ReachableIf 0 NoClosing s ∧ s.threads = [] ∧ Ev.unlinkEnd 0 ∈ s.g.log ∧ s.g.members [1] = [1] := by
  obtain ⟨s, hs, h⟩ : ∃ s, play noClosing (init 0) endWhileRestoring = some s ∧ s.threads = [] ∧
    Ev.unlinkEnd 0 ∈ s.g.log ∧ s.g.members [1] = [1] := ⟨_, rfl, rfl, by decide, rfl⟩
  exact ⟨s, play_from noClosing_ok _ .start hs, h⟩

/-! ## Once each time it is given -/

/-- C79 while no two operations work on the session of the same connection: a session is destroyed at most as often as
it was given to a connection, and less often while somebody has it. Missing: operations on the same connection that overlap. -/
theorem C79_once_partial {n : Nat} {s : State} (h : ReachableIf n Calm s) (k : Bytes) :
    s.g.log.count (.destroyed k) ≤ given k s.g.log ∧
    (s.g.members k ≠ [] → s.g.log.count (.destroyed k) < given k s.g.log) := by
  have hl : Lives k s.g s.threads := by
    refine calm_inv (ok := Calm) (fun _ _ h => h) (I := Lives k) (fun _ _ _ h hp => h.perm hp) ?_ ?_ ?_ h
    · intro g pc rest ts ch g' pcs hI hi _ _ ha hap
      exact hI.step hi ha hap
    · intro g ts pc hI _ he _
      unfold Lives at *
      rw [List.countP_cons]
      have : PC.dooms g k pc = false := by cases pc <;> simp_all [PC.entry, PC.dooms]
      simp only [this, Bool.false_eq_true, if_false]
      exact hI
    · simp [Lives, init, G.members, GoMap.get]
  unfold Lives at hl
  refine ⟨by omega, fun hne => ?_⟩
  have := List.length_pos_iff.mpr hne
  omega

/-- A session is created, shared, closed on both connections, and created again. -/
def lives : List Cmd :=
  [.call (.n1 0 [1]), .go 0, .go 0, .go 0, .go 0, .go 0, .go 0, .call (.r1 1 [1]), .go 0, .go 0, .go 0, .go 0,
   .call (.z1 [1]), .go 0 { order := [0, 1] }, .go 0, .go 0, .go 0, .go 0, .go 0, .go 0, .go 0, .go 0, .go 0,
   .call (.n1 0 [1]), .go 0, .go 0, .go 0, .go 0, .go 0, .go 0]

example : ∃ s, ReachableIf 0 Calm s ∧ s.threads = [] ∧ s.g.log.count (.destroyed [1]) = 1 ∧ given [1] s.g.log = 3 ∧
    s.g.members [1] = [0] := by
  obtain ⟨s, hs, h⟩ : ∃ s, play calm (init 0) lives = some s ∧ s.threads = [] ∧
    s.g.log.count (.destroyed [1]) = 1 ∧ given [1] s.g.log = 3 ∧ s.g.members [1] = [0] :=
      ⟨_, rfl, rfl, rfl, rfl, rfl⟩
  exact ⟨s, play_from calm_ok _ .start hs, h⟩

/-! ## By the last one to leave -/

/-- C79 while no two operations work on the session of the same connection and no connection ends: when no operation is
running, a session that was given to connections and that none has any more was destroyed. Missing: operations on the same
connection that overlap, and connections that end. -/
theorem C79_closed_is_destroyed_partial {n : Nat} {s : State} (h : ReachableIf n (fun s l => Calm s l ∧ NoEnding s l) s)
    (hr : s.threads = []) (k : Bytes) (hg : 0 < given k s.g.log) (hm : s.g.members k = []) :
    .destroyed k ∈ s.g.log := by
  have ho : Owned k s.g s.threads := by
    refine calm_inv (ok := fun s l => Calm s l ∧ NoEnding s l) (fun _ _ h => h.1) (I := Owned k)
      (fun g ts ts' hI hp => ?_) ?_ ?_ ?_ h
    · refine ⟨fun a hm => hI.1 a (hp.symm.subset hm), fun hg => ?_⟩
      rcases hI.2 hg with h | ⟨a, hm, hd⟩ | h
      · exact .inl h
      · exact .inr (.inl ⟨a, hp.subset hm, hd⟩)
      · exact .inr (.inr h)
    · intro g pc rest ts ch g' pcs hI hi _ _ ha hap
      exact hI.step hi ha hap
    · intro g ts pc hI _ hen hok
      refine ⟨fun a hm => ?_, fun hg => ?_⟩
      · rcases List.mem_cons.mp hm with rfl | hm
        · have h1 := hok.2
          cases a <;> simp only [PC.entry, Bool.false_eq_true] at hen <;> try rfl
          rename_i κ
          cases κ <;> simp_all [NoEnding]
        · exact hI.1 a hm
      · rcases hI.2 hg with h | ⟨a, hm, hd⟩ | h
        · exact .inl h
        · exact .inr (.inl ⟨a, List.mem_cons_of_mem _ hm, hd⟩)
        · exact .inr (.inr h)
    · simp [Owned, init, given]
  rcases ho.2 hg with h | ⟨a, ha, _⟩ | h
  · exact absurd hm h
  · rw [hr] at ha; cases ha
  · exact h

def noEnding (_ : State) : Label → Bool
  | .call (.d1 _ .unlink) => false
  | _ => true

theorem noEnding_ok (s : State) (l : Label) (h : noEnding s l = true) : NoEnding s l := by
  unfold noEnding at h
  split at h <;> simp_all [NoEnding]

/-- Two connections share a session, and both leave it at the same time. -/
def bothLeave : List Cmd :=
  [.call (.n1 0 [1]), .go 0, .go 0, .go 0, .go 0, .go 0, .go 0, .call (.r1 1 [1]), .go 0, .go 0, .go 0, .go 0,
   .call (.k1 0), .call (.x1 1 []), .go 1, .go 0, .go 1, .go 0, .go 1, .go 0, .go 0, .go 0, .go 0]

example : ∃ s, ReachableIf 0 (fun s l => Calm s l ∧ NoEnding s l) s ∧ s.threads = [] ∧ given [1] s.g.log = 2 ∧
    s.g.members [1] = [] := by
  obtain ⟨s, hs, h⟩ : ∃ s, play (fun s l => calm s l && noEnding s l) (init 0) bothLeave = some s ∧ s.threads = [] ∧
    given [1] s.g.log = 2 ∧ s.g.members [1] = [] := ⟨_, rfl, rfl, rfl, rfl⟩
  exact ⟨s, play_from (fun s l h => by
    rw [Bool.and_eq_true] at h; exact ⟨calm_ok s l h.1, noEnding_ok s l h.2⟩) _ .start hs, h⟩

/-! ## Not while it is in use -/

/-- C79: a session is destroyed only when no connection is left that has it. -/
def C79_full : Prop := ∀ (n : Nat) (s : State) (l : Label) (s' : State) (k : Bytes), Reachable n s → Step s l s' →
  s'.g.log = s.g.log ++ [.destroyed k] → s'.g.members k = []

/-- Connection 0 has left the registry and is about to destroy the session when connection 1 restores it. -/
def restoreWhileClosing : List Cmd :=
  [.call (.n1 0 [1]), .go 0, .go 0, .go 0, .go 0, .go 0, .go 0, .call (.k1 0), .go 0, .go 0, .go 0,
   .call (.r1 1 [1]), .go 0, .go 0, .go 0, .go 0]

/-- C79 does not hold: `deregister` unlocks the registry before it calls `OnSessionClosed` (sessionRegistry.go:81-97).
A connection that restores the session in between is told that it has it, and then the session is destroyed. The two
operations are on different connections and nothing else goes on. -/
theorem C79_violated : ¬ C79_full := by
  intro h
  obtain ⟨s, s', hs, h1, h2, h3⟩ : ∃ s s', play calm (init 0) restoreWhileClosing = some s ∧
      play calm (init 0) (restoreWhileClosing ++ [.go 0]) = some s' ∧
      (s'.g.log = s.g.log ++ [.destroyed [1]] ∧ s'.g.members [1] = [1]) ∧
      (legal s (.thread (.d3 0 .closure) {}) = true ∧ s.g.crashed = none ∧ s.threads[0]? = some (.d3 0 .closure) ∧
        exec s (.go 0) = some s') :=
    ⟨_, _, rfl, rfl, ⟨rfl, rfl⟩, rfl, rfl, rfl, rfl⟩
  have hr : Reachable 0 s := play_from (fun _ _ _ => trivial) _ .start hs
  have hst : Step s (.thread (.d3 0 .closure) {}) s' :=
    exec_step (cmd := .go 0) h3.2.1 (by simp [Cmd.label, h3.2.2.1]) h3.1 h3.2.2.2
  have := h 0 s _ s' [1] hr hst h2.1
  rw [h2.2] at this
  cases this

/-- C79 as long as a session is neither restored nor created while it is being closed, and no two operations work on the
session of the same connection. Missing: sessions restored or created while they are being closed, for which it is false. -/
theorem C79_partial {n : Nat} {s s' : State} {l : Label} (h : ReachableIf n (fun s l => Calm s l ∧ NoRevival s l) s)
    (hst : Step s l s') (k : Bytes) (he : s'.g.log = s.g.log ++ [.destroyed k]) : s'.g.members k = [] := by
  have hg : Gone s.g s.threads := by
    refine calm_inv (ok := fun s l => Calm s l ∧ NoRevival s l) (fun _ _ h => h.1) (I := Gone)
      (fun g ts ts' hI hp a hm k hd => ?_) ?_ ?_ ?_ h
    · obtain ⟨h1, h2⟩ := hI a (hp.symm.subset hm) k hd
      exact ⟨fun b hb => h1 b (hp.symm.subset hb), h2⟩
    · intro g pc rest ts ch g' pcs hI hi hp hok ha hap
      obtain ⟨h1, h2⟩ := hok.2
      have hsub : ∀ a ∈ rest, a ∈ ts := fun a h => hp.symm.subset (List.mem_cons_of_mem _ h)
      exact hI.step hi ha hap (fun k hk a hm => h1 k hk a (hsub a hm))
        (fun c κ k e hu hs a hm => h2 c κ k e hu hs a (hsub a hm))
    · intro g ts pc hI _ hen _ a hm k hd
      have hp : ∀ k, pc.pending k = false := by intro k; cases pc <;> simp_all [PC.entry, PC.pending]
      rcases List.mem_cons.mp hm with rfl | hm
      · cases a <;> simp_all [PC.entry, PC.destroys]
      · obtain ⟨h1, h2⟩ := hI a hm k hd
        refine ⟨fun b hb => ?_, h2⟩
        rcases List.mem_cons.mp hb with rfl | hb
        · exact hp k
        · exact h1 b hb
    · intro a hm; simp [init] at hm
  cases hst with
  | call => simp at he
  | thread g g' pre post pcs pc ch hc hsn ha =>
    have ha := acts_of_act ha
    simp only at he hg ⊢
    clear h hsn
    cases ha
    all_goals (simp [G.emit, G.setSession, G.setLock, G.crash] at he)
    case d3 c κ key hs =>
      subst he
      have := (hg (.d3 c κ) (by simp) key (by simp [PC.destroys, hs])).2 ⟨c, κ, rfl⟩
      simpa [G.emit, G.members] using this

/-- One connection leaves while another restores, then the other closes the session. -/
example : ∃ s, ReachableIf 0 (fun s l => Calm s l ∧ NoRevival s l) s ∧ s.threads = [] ∧
    s.g.log.count (.destroyed [1]) = 1 ∧ given [1] s.g.log = 3 ∧ s.g.members [1] = [0] := by
  obtain ⟨s, hs, h⟩ : ∃ s, play (fun s l => calm s l && noRevival s l) (init 0) lives = some s ∧ s.threads = [] ∧
    s.g.log.count (.destroyed [1]) = 1 ∧ given [1] s.g.log = 3 ∧ s.g.members [1] = [0] :=
      ⟨_, rfl, rfl, rfl, rfl, rfl⟩
  exact ⟨s, play_from (fun s l h => by
    rw [Bool.and_eq_true] at h; exact ⟨calm_ok s l h.1, noRevival_ok s l h.2⟩) _ .start hs, h⟩

end Webwire.Races
