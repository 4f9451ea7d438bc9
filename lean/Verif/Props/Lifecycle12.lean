import Verif.Props.Lifecycle
import Mathlib.Logic.Relation

/-!
# C30: what can go wrong at most when `Close` meets a message
-/

set_option autoImplicit false

namespace Webwire.Life
namespace Spec

/-- Messages that were registered and whose handler was not called yet. -/
def awaits (c : ConnId) : PC → Bool
  | .dispatching c' _ | .starting c' _ _ => decide (c' = c)
  | _ => false

end Spec

open Spec (awaits)

private def busy (t : Int) : Nat := if 0 < t then 1 else 0

private theorem Acts.potential {g g' : G} {ch : Choice} {pc : PC} {pcs : List PC} (h : Acts g ch pc g' pcs) (c : ConnId)
    (T : Nat) (ht : (g.conns c).tasks = T + [pc].countP (PC.holdsTask c)) :
    ((g.conns c).active = false →
      (g'.conns c).sockCloses + pcs.countP (PC.unlinks c) + busy (g'.conns c).tasks + pcs.countP (PC.between c) ≤
        (g.conns c).sockCloses + [pc].countP (PC.unlinks c) + busy (g.conns c).tasks + [pc].countP (PC.between c)) ∧
    ((g.conns c).active = true → [pc].countP (PC.unlinks c) = 0 → (g'.conns c).sockCloses = (g.conns c).sockCloses ∧
      ((g'.conns c).active = true → pcs.countP (PC.unlinks c) = 0) ∧
      ((g'.conns c).active = false → pcs.countP (PC.unlinks c) + busy (g'.conns c).tasks ≤ 1 ∧
        pcs.countP (PC.between c) ≤ [pc].countP (PC.between c))) := by
  cases h <;> simp [PC.between, PC.holdsTask, PC.unlinks, resume, closed, G.ev, G.upd, G.crash, unlinked,
    List.countP_cons, busy] at * <;>
    grind [PC.between, PC.holdsTask, PC.unlinks]

private theorem PC.between_isReader {c : ConnId} {pc : PC} (h : pc.between c = true) : pc.isReader c = true := by
  cases pc <;> simp_all [PC.between, PC.isReader]

private structure Twice (c : ConnId) (s : State) : Prop where
  live : (s.g.conns c).active = true → (s.g.conns c).sockCloses = 0 ∧ s.threads.countP (PC.unlinks c) = 0
  done : (s.g.conns c).active = false → (s.g.conns c).sockCloses + s.threads.countP (PC.unlinks c) +
    busy (s.g.conns c).tasks + s.threads.countP (PC.between c) ≤ 2

private theorem Twice.step {c : ConnId} {s s' : State} {l : Label} (hi : Twice c s) (hv : Inv s) (h : Step s l s') :
    Twice c s' := by
  obtain ⟨h1, h2⟩ := hi
  have hb : s.threads.countP (PC.between c) ≤ 1 :=
    (List.countP_mono_left fun _ _ => PC.between_isReader).trans (hv.reader c)
  have ht := hv.tasks c
  cases h with
  | thread g g' pre post pcs pc ch hc hact =>
    have ha := acts_of_act hact
    have hcons : ∀ p : PC → Bool, (pc :: post).countP p = post.countP p + [pc].countP p := by
      intro p; simp [List.countP_cons]
    simp only [List.countP_append, hcons] at h1 h2 hb ht
    have hp := ha.potential c (pre.countP (PC.holdsTask c) + post.countP (PC.holdsTask c)) (by omega)
    constructor <;> simp only [List.countP_append] <;> intro hA'
    · cases hA : (g.conns c).active
      · have := (ha.between c hA).1
        rw [this] at hA'; cases hA'
      · have h3 := h1 hA
        have h4 := hp.2 hA (by omega)
        have := h4.2.1 hA'
        omega
    · cases hA : (g.conns c).active
      · have h3 := h2 hA
        have h4 := hp.1 hA
        omega
      · have h3 := h1 hA
        have h4 := hp.2 hA (by omega)
        have := h4.2.2 hA'
        omega
  | connect g ts c' limit hc hu =>
    by_cases hcc : c = c'
    · subst hcc
      have h0 := hv.unused c hu
      have hz : ts.countP (PC.unlinks c) = 0 := countP_zero_of_imp (fun _ => PC.unlinks_isOn) h0.2
      constructor <;> simp [PC.unlinks, hz]
    · have hg : (connected g c' limit).conns c = g.conns c := if_neg hcc
      constructor <;> simp only [hg]
      · exact h1
      · exact h2
  | close g ts c' hc hu => exact ⟨h1, h2⟩
  | shutdown g ts hc => exact ⟨h1, h2⟩

private theorem twice (s : State) (h : Reachable s) (c : ConnId) : Twice c s := by
  induction h with
  | start => constructor <;> simp [busy]
  | step s l s' hr _ hst ih => exact ih.step hr.inv hst

/-- C30: in no execution is the socket of a connection closed more than twice, and while the connection is open it is not
closed at all. -/
theorem C30_at_most_twice (s : State) (h : Reachable s) (c : ConnId) :
    (s.g.conns c).sockCloses ≤ 2 ∧ ((s.g.conns c).active = true → (s.g.conns c).sockCloses = 0) := by
  have ht := twice s h c
  refine ⟨?_, fun ha => (ht.live ha).1⟩
  cases ha : (s.g.conns c).active
  · have := ht.done ha
    omega
  · have := (ht.live ha).1
    omega

/-- C30, non-vacuity: it can be closed twice. -/
example : ∃ s, Reachable s ∧ (s.g.conns 1).sockCloses = 2 := by
  have hrun : ∃ s, play anyStep {} (exCloseRace ++ steps 0 9) = some s ∧ (s.g.conns 1).sockCloses = 2 := ⟨_, rfl, rfl⟩
  obtain ⟨s, h, hc⟩ := hrun
  exact ⟨s, play_any h, hc⟩

private theorem Acts.starts {g g' : G} {ch : Choice} {pc : PC} {pcs : List PC} (h : Acts g ch pc g' pcs) (c : ConnId)
    (hA : (g.conns c).active = false) :
    g'.log.countP (LEv.isStart c) + pcs.countP (awaits c) + pcs.countP (PC.between c) ≤
      g.log.countP (LEv.isStart c) + [pc].countP (awaits c) + [pc].countP (PC.between c) := by
  cases h <;> simp [PC.between, awaits, resume, closed, G.ev, G.upd, G.crash, unlinked, List.countP_cons,
    List.countP_append, LEv.isStart] at * <;>
    grind [PC.between, awaits]

/-- C30: once a connection is closed at most one message is handled in addition to those registered before, whatever
happens. -/
theorem C30_one_more (s s' : State) (h : Reachable s) (c : ConnId) (hu : (s.g.conns c).used = true)
    (ha : (s.g.conns c).active = false) (hs : Relation.ReflTransGen (fun a b => ∃ l, Step a l b) s s') :
    s'.g.log.countP (LEv.isStart c) ≤ s.g.log.countP (LEv.isStart c) + s.threads.countP (awaits c) + 1 := by
  have hb : s.threads.countP (PC.between c) ≤ 1 :=
    (List.countP_mono_left fun _ _ => PC.between_isReader).trans (h.inv.reader c)
  suffices hx : (s'.g.conns c).used = true ∧ (s'.g.conns c).active = false ∧
      s'.g.log.countP (LEv.isStart c) + s'.threads.countP (awaits c) + s'.threads.countP (PC.between c) ≤
      s.g.log.countP (LEv.isStart c) + s.threads.countP (awaits c) + s.threads.countP (PC.between c) by omega
  induction hs with
  | refl => exact ⟨hu, ha, le_refl _⟩
  | tail _ hst ih =>
    obtain ⟨hu1, ha1, hle⟩ := ih
    obtain ⟨l, hst⟩ := hst
    cases hst with
    | thread g g' pre post pcs pc ch hc hact =>
      have hact := acts_of_act hact
      refine ⟨by rw [(hact.static c).1]; exact hu1, (hact.between c ha1).1, ?_⟩
      have := hact.starts c ha1
      simp only [List.countP_append, List.countP_cons, List.countP_nil] at hle this ⊢
      omega
    | connect g ts c' limit hc hu' =>
      have hcc : c ≠ c' := by rintro rfl; simp only at hu1; rw [hu'] at hu1; cases hu1
      refine ⟨by simpa [hcc] using hu1, by simpa [hcc] using ha1, ?_⟩
      simpa [awaits, PC.between] using hle
    | close g ts c' hc hu' => exact ⟨hu1, ha1, by simpa [awaits, PC.between] using hle⟩
    | shutdown g ts hc => exact ⟨hu1, ha1, by simpa [awaits, PC.between] using hle⟩

private theorem play_steps (cmds : List Cmd) (s s' : State) (h : play anyStep s cmds = some s') :
    Relation.ReflTransGen (fun a b => ∃ l, Step a l b) s s' := by
  induction cmds generalizing s with
  | nil => cases h; exact .refl
  | cons cmd cmds ih =>
    unfold play at h
    split at h
    · rename_i l s1 hl he
      split at h
      · exact .head ⟨l, exec_step hl he⟩ (ih s1 h)
      · cases h
    · cases h

/-- C30, non-vacuity: the connection is closed, no message is registered, and yet one is handled afterwards. -/
example : ∃ s s', Reachable s ∧ (s.g.conns 1).used = true ∧ (s.g.conns 1).active = false ∧
    s.threads.countP (awaits 1) = 0 ∧ Relation.ReflTransGen (fun a b => ∃ l, Step a l b) s s' ∧
    s'.g.log.countP (LEv.isStart 1) = s.g.log.countP (LEv.isStart 1) + 1 := by
  have hrun : ∃ s, play anyStep {} exCloseRace = some s ∧ (s.g.conns 1).used = true ∧ (s.g.conns 1).active = false ∧
      s.threads.countP (awaits 1) = 0 ∧ ∃ s', play anyStep s (steps 0 9) = some s' ∧
      s'.g.log.countP (LEv.isStart 1) = s.g.log.countP (LEv.isStart 1) + 1 := ⟨_, rfl, rfl, rfl, rfl, _, rfl, rfl⟩
  obtain ⟨s, h, hu, ha, hw, s', h', he⟩ := hrun
  exact ⟨s, s', play_any h, hu, ha, hw, play_steps _ _ _ h', he⟩

end Webwire.Life
