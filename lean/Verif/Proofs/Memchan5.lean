import Verif.Proofs.Memchan4

/-!
# memchan: invariants of whole executions
-/

set_option autoImplicit false

namespace Webwire.Mem

/-- An invariant that does not depend on the order of the goroutines holds after any execution, if the steps and the
calls keep it. -/
theorem From.inv {ok : State → Label → Prop} {I : G → List PC → Prop}
    (hp : ∀ g ts ts', I g ts → ts.Perm ts' → I g ts')
    (ha : ∀ g pc rest ts ch conns g' pcs, I g (pc :: rest) → ts.Perm (pc :: rest) → g.crashed = none →
      ok ⟨g, ts⟩ (.thread pc ch conns) → Acts g pc g' pcs → I g' (pcs ++ rest))
    (hw : ∀ g ts p x chunks, I g ts → ok ⟨g, ts⟩ (.write p x chunks) → I g (.w1 p x chunks :: ts))
    (hr : ∀ g ts p x dl, I g ts → ok ⟨g, ts⟩ (.read p x dl) → I g (.r1 p x dl :: ts))
    (hd : ∀ g ts p, I g ts → ok ⟨g, ts⟩ (.dial p) → I g (.d1 p :: ts))
    (hc : ∀ g ts p x, I g ts → ok ⟨g, ts⟩ (.close p x) → I g (.c1 p x .user :: ts))
    (hs : ∀ g ts, I g ts → ok ⟨g, ts⟩ .shutdown → I g (.s1 :: ts))
    (hv : ∀ g ts, I g ts → ok ⟨g, ts⟩ .serve → I g (.v1 :: ts))
    (hf : ∀ g ts, I g ts → ok ⟨g, ts⟩ .refuse → I g.refuse ts)
    {s s' : State} (h0 : I s.g s.threads) (h : From ok s s') : I s'.g s'.threads := by
  induction h with
  | start => exact h0
  | step s1 l s2 _ hok hst ih =>
    cases hst with
    | thread g g' pre post pcs pc ch conns hcr hsn hact =>
      have hperm : (pre ++ pc :: post).Perm (pc :: (pre ++ post)) := List.perm_middle
      have h1 := ha g pc (pre ++ post) _ ch conns g' pcs (hp _ _ _ ih hperm) hperm hcr hok (acts_of_act hact hsn)
      refine hp _ _ _ h1 ?_
      rw [← List.append_assoc, ← List.append_assoc]
      exact List.perm_append_comm.append_right post
    | write g ts p x chunks hcr => exact hw _ _ _ _ _ ih hok
    | read g ts p x dl hcr => exact hr _ _ _ _ _ ih hok
    | dial g ts p hcr => exact hd _ _ _ ih hok
    | close g ts p x hcr => exact hc _ _ _ _ ih hok
    | shutdown g ts hcr => exact hs _ _ ih hok
    | serve g ts hcr => exact hv _ _ ih hok
    | refuse g ts hcr => exact hf _ _ ih hok

/-! ## One life per pair -/

theorem CoreOf.perm {g : G} {ts ts' : List PC} {p : Nat} {x : Side} (hl : Locks g ts p x) (hl' : Locks g ts p x.other)
    (h : CoreOf g ts p x) (hp : ts.Perm ts') : CoreOf g ts' p x := by
  unfold CoreOf at h ⊢
  have e1 : the (PC.wr p x) ts' = the (PC.wr p x) ts := (find_perm hl.exclW hp).symm
  have hfin : Excl (PC.fin p x) ts := hl.exclB.imp (by
    intro a b h
    cases ha : a.fin p x
    · exact .inl rfl
    · cases hb : b.fin p x
      · exact .inr rfl
      · simp [PC.fin_bf ha, PC.fin_bf hb] at h)
  have e2 : the (PC.fin p x) ts' = the (PC.fin p x) ts := (find_perm hfin hp).symm
  have e3 : the (PC.rd p x.other) ts' = the (PC.rd p x.other) ts := (find_perm hl'.exclR hp).symm
  rw [e1, e2, e3]
  exact h

/-- A new goroutine without locks. -/
theorem Locks.add {g : G} {a : PC} {ts : List PC} {p : Nat} {x : Side} (h : Locks g ts p x)
    (h1 : a.wr p x = false) (h2 : a.bf p x = false) (h3 : a.rd p x = false) : Locks g (a :: ts) p x := by
  obtain ⟨g1, g2, g3, g4, g5, g6⟩ := h
  constructor <;> simp [Excl.cons, h1, h2, h3] <;> assumption

theorem CoreOf.add {g : G} {a : PC} {ts : List PC} {p : Nat} {x : Side} (h : CoreOf g ts p x)
    (h1 : a.wr p x = false) (h2 : a.fin p x = false) (h3 : a.rd p x.other = false) : CoreOf g (a :: ts) p x := by
  simp_all [CoreOf, the_cons]

theorem Life.add {g : G} {a : PC} {ts : List PC} {p : Nat} (h : Life g ts p)
    (h1 : a.uses p = true → Ev.dialEnd p true ∈ g.log)
    (h2 : a.dials p = true → Ev.dialEnd p true ∉ g.log ∧ ∀ b ∈ ts, b.dials p = false)
    (h3 : a.closing p = false) : Life g (a :: ts) p := by
  obtain ⟨g1, g2, g3, g4, g5⟩ := h
  constructor
  · simpa using ⟨h1, g1⟩
  · simpa using ⟨fun h => (h2 h).1, g2⟩
  · exact Excl.cons.mpr ⟨fun h => (h2 h).2, g3⟩
  · exact g4
  · simpa [h3] using g5

/-- The invariant. -/
structure Inv (g : G) (ts : List PC) : Prop where
  locks : ∀ p x, Locks g ts p x
  life : ∀ p, Life g ts p
  core : ∀ p x, CoreOf g ts p x

theorem Locks.initial (size p : Nat) (x : Side) : Locks (init size).g (init size).threads p x := by
  constructor <;> simp [init, Excl.nil]

theorem Inv.initial (size : Nat) : Inv (init size).g (init size).threads := by
  constructor
  · exact fun p x => Locks.initial size p x
  · intro p; constructor <;> simp [init, Excl.nil, G.listed]
  · intro p x; constructor <;>
      simp [init, the, G.sock, G.connected, flushes, copies, oks, Sock.chan]

theorem From.oneLife {ok : State → Label → Prop} (hok : ∀ s l, ok s l → OneLife s l) {size : Nat} {s : State}
    (h : ReachableIf size ok s) : Inv s.g s.threads := by
  refine From.inv (ok := ok) ?_ ?_ ?_ ?_ ?_ ?_ ?_ ?_ ?_ (Inv.initial size) h
  · exact fun g ts ts' h hp => ⟨fun p x => (h.locks p x).perm hp, fun p => (h.life p).perm hp,
      fun p x => (h.core p x).perm (h.locks p x) (h.locks p x.other) hp⟩
  · exact fun g pc rest ts ch conns g' pcs h _ _ _ ha => ⟨fun p x => (h.locks p x).acts ha, fun p => (h.life p).acts ha,
      fun p x => CoreOf.acts (h.life p) (h.locks p x) (h.locks p x.other) (h.core p x) ha⟩
  · intro g ts q z chunks h ho
    have ho := hok _ _ ho
    exact ⟨fun p x => (h.locks p x).add rfl rfl rfl,
      fun p => (h.life p).add (by simp [PC.uses]; rintro rfl; exact ho) (by simp [PC.dials]) rfl,
      fun p x => (h.core p x).add rfl rfl rfl⟩
  · intro g ts q z dl h ho
    have ho := hok _ _ ho
    exact ⟨fun p x => (h.locks p x).add rfl rfl rfl,
      fun p => (h.life p).add (by simp [PC.uses]; rintro rfl; exact ho) (by simp [PC.dials]) rfl,
      fun p x => (h.core p x).add rfl rfl rfl⟩
  · intro g ts q h ho
    have ho := hok _ _ ho
    exact ⟨fun p x => (h.locks p x).add rfl rfl rfl,
      fun p => (h.life p).add (by simp [PC.uses]) (by simp [PC.dials]; rintro rfl; exact ⟨ho.2, ho.1⟩) rfl,
      fun p x => (h.core p x).add rfl rfl rfl⟩
  · intro g ts q z h ho
    have ho := hok _ _ ho
    exact ⟨fun p x => (h.locks p x).add rfl rfl rfl,
      fun p => (h.life p).add (by simp [PC.uses, Cont.uses]; rintro rfl; exact ho) (by simp [PC.dials]) rfl,
      fun p x => (h.core p x).add rfl rfl rfl⟩
  · exact fun g ts h _ => ⟨fun p x => (h.locks p x).add rfl rfl rfl,
      fun p => (h.life p).add (by simp [PC.uses]) (by simp [PC.dials]) rfl, fun p x => (h.core p x).add rfl rfl rfl⟩
  · exact fun g ts h _ => ⟨fun p x => (h.locks p x).add rfl rfl rfl,
      fun p => (h.life p).add (by simp [PC.uses]) (by simp [PC.dials]) rfl, fun p x => (h.core p x).add rfl rfl rfl⟩
  · intro g ts h _
    refine ⟨fun p x => ?_, fun p => ?_, fun p x => ?_⟩
    · obtain ⟨h1, h2, h3, h4, h5, h6⟩ := h.locks p x; exact ⟨h1, h2, h3, h4, h5, h6⟩
    · obtain ⟨h1, h2, h3, h4, h5⟩ := h.life p; exact ⟨h1, h2, h3, h4, h5⟩
    · exact Core.same (h.core p x) (by constructor <;> simp)

/-- What the invariant says about the messages. -/
theorem Core.delivered {g : G} {W F R : Option PC} {p : Nat} {x : Side} (h : Core g W F R p x) :
    oks p x g.log <+: copies p x.other g.log ∧ copies p x.other g.log <+: flushes p x g.log ∧
    (flushes p x g.log).length ≤ (oks p x g.log).length + 1 := by
  have hw : (flushes p x g.log).length ≤ (oks p x g.log).length + 1 := by
    rcases h.weak with e | ⟨m, e⟩ <;> simp [e]
  have hok : oks p x g.log <+: flushes p x g.log := by
    rcases h.weak with e | ⟨m, e⟩ <;> simp [e]
  have pend : ∀ d, flushes p x g.log = copies p x.other g.log ++ [d] →
      (∃ m, flushes p x g.log = oks p x g.log ++ [m]) →
      oks p x g.log <+: copies p x.other g.log ∧ copies p x.other g.log <+: flushes p x g.log := by
    rintro d e ⟨m, e'⟩
    rw [e] at e'
    have := List.append_inj_left' e' rfl
    exact ⟨by rw [this]; exact List.prefix_rfl, by rw [e]; exact List.prefix_append _ _⟩
  cases hb : (g.sock p x.other).chan.buf with
  | some n =>
    have := pend _ (h.pendChan n hb).1 (h.pendOk (.inl (by simp [hb])))
    exact ⟨this.1, this.2, hw⟩
  | none =>
    by_cases hr : ∃ n, R = some (.r5 p x.other n)
    · obtain ⟨n, hn⟩ := hr
      have := pend _ (h.pendRead n hn) (h.pendOk (.inr ⟨n, hn⟩))
      exact ⟨this.1, this.2, hw⟩
    · have := h.pendNone hb (fun n e => hr ⟨n, e⟩)
      rw [← this]
      exact ⟨hok, List.prefix_rfl, hw⟩

end Webwire.Mem
