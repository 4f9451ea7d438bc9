import Verif.Props.Lifecycle3

/-!
# What is refused, and what stays open

More of statements C28 and C30.
-/

set_option autoImplicit false

namespace Webwire.Life

/-! ## C28: only requests are refused, and only after `Shutdown` -/

/-- Messages on their way to be refused. -/
structure RefInv (s : State) : Prop where
  flag : s.g.shutdown = true → .stop ∈ s.g.log
  on : ∀ c m, .refusing c m ∈ s.threads → m.requiresReply = true ∧ .stop ∈ s.g.log
  log : ∀ c m, .refused c m ∈ s.g.log → m.requiresReply = true ∧ .stop ∈ s.g.log

theorem Acts.refuses {g g' : G} {ch : Choice} {pc : PC} {pcs : List PC} (h : Acts g ch pc g' pcs) :
    (∀ e, e ∈ g.log → e ∈ g'.log) ∧
    (g'.shutdown = true → g.shutdown = true ∨ .stop ∈ g'.log) ∧
    (∀ c m, .refusing c m ∈ pcs → pc = .refusing c m ∨ (g.shutdown = true ∧ m.requiresReply = true)) ∧
    (∀ c m, .refused c m ∈ g'.log → .refused c m ∈ g.log ∨ pc = .refusing c m) := by
  refine ⟨fun e he => ?_, ?_, fun c m => ?_, fun c m => ?_⟩ <;>
    cases h <;> grind [G.ev, G.upd, unlinked, G.crash, resume, closed]

theorem ReachableIf.refInv {ok : State → Label → Prop} {s : State} (h : ReachableIf ok s) : RefInv s := by
  induction h with
  | start => exact ⟨by simp, by simp, by simp⟩
  | step s l s' hr ho hs ih =>
    cases hs with
    | thread g g' pre post pcs pc ch hc hact =>
      obtain ⟨h1, h2, h3, h4⟩ := (acts_of_act hact).refuses
      have hon : ∀ c m, pc = .refusing c m → m.requiresReply = true ∧ .stop ∈ g.log := by
        rintro c m rfl
        exact ih.on c m (by simp)
      refine ⟨fun hsd => ?_, fun c m hm => ?_, fun c m hm => ?_⟩
      · rcases h2 hsd with h | h
        · exact h1 _ (ih.flag h)
        · exact h
      · simp only [List.mem_append] at hm
        have hold : .refusing c m ∈ pre ++ pc :: post → m.requiresReply = true ∧ LEv.stop ∈ g'.log :=
          fun h => ⟨(ih.on c m h).1, h1 _ (ih.on c m h).2⟩
        rcases hm with hm | hm | hm
        · exact hold (by simp [hm])
        · rcases h3 c m hm with h | h
          · exact hold (by simp [h])
          · exact ⟨h.2, h1 _ (ih.flag h.1)⟩
        · exact hold (by simp [hm])
      · rcases h4 c m hm with h | h
        · exact ⟨(ih.log c m h).1, h1 _ (ih.log c m h).2⟩
        · exact ⟨(hon c m h).1, h1 _ (hon c m h).2⟩
    | connect g ts c' limit hc hu =>
      exact ⟨ih.flag, fun c m hm => ih.on c m (by simpa using hm), ih.log⟩
    | close g ts c' hc hu => exact ⟨ih.flag, fun c m hm => ih.on c m (by simpa using hm), ih.log⟩
    | shutdown g ts hc => exact ⟨ih.flag, fun c m hm => ih.on c m (by simpa using hm), ih.log⟩

/-- C28: the shutdown reply is for messages that expect a reply, and is sent only once `Shutdown` was called. -/
theorem C28_only_requests_refused (s : State) (h : Reachable s) (c : ConnId) (m : LMsg) (hm : .refused c m ∈ s.g.log) :
    m.requiresReply = true ∧ .stop ∈ s.g.log := (ReachableIf.refInv h).log c m hm

/-- A request refused after `Shutdown`. -/
example : ∃ s, play anyStep {} ([.connect 1 1, .shutdown, .go 0, recv 1 (exReq 1)] ++ steps 1 4) = some s ∧
    .refused 1 (exReq 1) ∈ s.g.log := ⟨_, rfl, by decide⟩

/-! ## C30: connections do not close by themselves -/

/-- About to do what closing does. -/
def PC.closes (c : ConnId) : PC → Bool
  | .closing c' _ | .closeUnlinking c' _ | .unlinking c' _ | .disconnecting c' => decide (c' = c)
  | _ => false

theorem PC.closes_isOn {c : ConnId} {pc : PC} (h : pc.closes c = true) : pc.isOn c = true := by
  cases pc <;> simp_all [PC.closes, PC.isOn]

theorem Acts.leaves {g g' : G} {ch : Choice} {pc : PC} {pcs : List PC} (h : Acts g ch pc g' pcs) (c : ConnId)
    (ha : (g.conns c).used = true → (g.conns c).active = true ∧ (g.conns c).sockCloses = 0)
    (hu : (g.conns c).used = false → pc.isOn c = false)
    (hp : pc.closes c = false) (hr : pc = .reading c → ch.msg ≠ none) :
    ((g'.conns c).used = true → (g'.conns c).active = true ∧ (g'.conns c).sockCloses = 0) ∧
    (∀ a ∈ pcs, a.closes c = false) ∧ (.disconnected c ∈ g'.log → .disconnected c ∈ g.log) := by
  cases h <;> grind [G.ev, G.upd, unlinked, G.crash, resume, closed, PC.closes, PC.isOn]

/-- What nobody closes. -/
structure AloneInv (c : ConnId) (s : State) : Prop where
  active : (s.g.conns c).used = true → (s.g.conns c).active = true ∧ (s.g.conns c).sockCloses = 0
  closes : ∀ a ∈ s.threads, a.closes c = false
  log : .disconnected c ∉ s.g.log

theorem ReachableIf.aloneInv {s : State} (c : ConnId) (h : ReachableIf (Spec.LeftAlone c) s) : AloneInv c s := by
  induction h with
  | start => exact ⟨by simp, by simp, by simp⟩
  | step s l s' hr ho hs ih =>
    cases hs with
    | thread g g' pre post pcs pc ch hc hact =>
      have hv := hr.inv
      obtain ⟨h1, h2, h3⟩ := (acts_of_act hact).leaves c ih.active
        (fun hu => by
          have := hv.unused c hu
          simp only at this
          cases hx : pc.isOn c
          · rfl
          · grind)
        (ih.closes pc (by simp)) (by rintro rfl; exact ho rfl)
      refine ⟨h1, fun a hm => ?_, fun hm => ih.log (h3 hm)⟩
      simp only [List.mem_append] at hm
      rcases hm with hm | hm | hm
      · exact ih.closes a (by simp [hm])
      · exact h2 a hm
      · exact ih.closes a (by simp [hm])
    | connect g ts c' limit hc hu =>
      refine ⟨?_, fun a hm => ?_, ih.log⟩
      · simp only [connected]
        split
        · simp
        · exact ih.active
      · rcases List.mem_cons.mp hm with rfl | hm
        · rfl
        · exact ih.closes a hm
    | close g ts c' hc hu =>
      refine ⟨ih.active, fun a hm => ?_, ih.log⟩
      rcases List.mem_cons.mp hm with rfl | hm
      · have : c' ≠ c := ho
        simpa [PC.closes] using this
      · exact ih.closes a hm
    | shutdown g ts hc =>
      refine ⟨ih.active, fun a hm => ?_, ih.log⟩
      rcases List.mem_cons.mp hm with rfl | hm
      · rfl
      · exact ih.closes a hm

/-- C30: a connection that nobody closes and whose socket does not fail stays open, whatever messages it gets, whatever
handlers do and whatever happens to other connections, `Shutdown` included: it remains active, its socket is not closed
and `OnClientDisconnected` is not called. -/
theorem C30_stays_open (s : State) (c : ConnId) (h : ReachableIf (Spec.LeftAlone c) s) :
    ((s.g.conns c).used = true → (s.g.conns c).active = true ∧ (s.g.conns c).sockCloses = 0) ∧
    .disconnected c ∉ s.g.log :=
  ⟨(ReachableIf.aloneInv c h).active, (ReachableIf.aloneInv c h).log⟩

def leftAlone (c : ConnId) (_ : State) : Label → Bool
  | .close c' => decide (c' ≠ c)
  | .thread (.reading c') ch => decide (c' ≠ c) || ch.msg.isSome
  | _ => true

theorem leftAlone_ok (c : ConnId) (s : State) (l : Label) (h : leftAlone c s l = true) : Spec.LeftAlone c s l := by
  unfold leftAlone at h
  split at h
  · simpa [Spec.LeftAlone] using h
  · simp only [Bool.or_eq_true, decide_eq_true_eq] at h
    intro e hn
    rcases h with h | h
    · exact h e
    · rw [hn] at h; cases h
  · rename_i h1 h2
    cases l <;> simp_all [Spec.LeftAlone]

/-- Connection 2 is closed, connection 1 is not. -/
example : ∃ s, ReachableIf (Spec.LeftAlone 1) s ∧ (s.g.conns 1).used = true ∧ (s.g.conns 2).sockCloses = 1 ∧
    .start 1 (exReq 1) ∈ s.g.log := by
  obtain ⟨s, hs, h⟩ : ∃ s, play (leftAlone 1) {} ([.connect 1 1, recv 0 (exReq 1)] ++ steps 0 6 ++
      [.connect 2 1, .close 2, .go 0, .go 0]) = some s ∧ (s.g.conns 1).used = true ∧ (s.g.conns 2).sockCloses = 1 ∧
    .start 1 (exReq 1) ∈ s.g.log := ⟨_, rfl, rfl, rfl, by decide⟩
  exact ⟨s, play_reachable (leftAlone_ok 1) _ _ _ .start hs, h⟩

end Webwire.Life
