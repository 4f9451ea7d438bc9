import Verif.Proofs.Memchan10

/-!
# memchan: who waits when nobody can go on; and nobody goes on for ever
-/

set_option autoImplicit false

namespace Webwire.Mem

theorem Acts.listing {g g' : G} {pc : PC} {pcs : List PC} (ha : Acts g pc g' pcs) :
    (∀ p, g'.listed p = g.listed p) ∨ ∃ q b, ∀ p, g'.listed p = if p = q then b else g.listed p := by
  cases ha
  case c6r p x res => exact .inr ⟨p, false, fun q => by simp only [listed_ev, listed_upd, listed_setListed]⟩
  all_goals first
    | exact .inr ⟨_, _, fun p => listed_setListed _ _ p _⟩
    | exact .inl fun p => by simp

/-- There are finitely many connections. -/
theorem snapshot_reachable {ok : State → Label → Prop} {size : Nat} {s : State} (h : ReachableIf size ok s) :
    ∃ conns, Snapshot s.g conns := by
  refine From.inv (ok := ok) (I := fun g _ => ∃ conns, Snapshot g conns) ?_ ?_ ?_ ?_ ?_ ?_ ?_ ?_ ?_
    ⟨[], List.nodup_nil, by simp [init, G.listed]⟩ h
  · exact fun g ts ts' h _ => h
  · rintro g pc rest ts ch conns g' pcs ⟨l, hn, hl⟩ - - - ha
    rcases ha.listing with e | ⟨q, b, e⟩
    · exact ⟨l, hn, fun p => by rw [e]; exact hl p⟩
    · cases b
      · refine ⟨l.filter (· ≠ q), hn.filter _, fun p => ?_⟩
        rw [e]
        by_cases hp : p = q <;> simp [hp, hl]
      · by_cases hq : q ∈ l
        · refine ⟨l, hn, fun p => ?_⟩
          rw [e]
          by_cases hp : p = q <;> simp [hp, hl, hq]
        · refine ⟨q :: l, List.nodup_cons.mpr ⟨hq, hn⟩, fun p => ?_⟩
          rw [e]
          by_cases hp : p = q <;> simp [hp, hl]
  · exact fun g ts p x c h _ => h
  · exact fun g ts p x c h _ => h
  · exact fun g ts p h _ => h
  · exact fun g ts p x h _ => h
  · exact fun g ts h _ => h
  · exact fun g ts h _ => h
  · exact fun g ts h _ => h

/-! ## Nobody goes on for ever -/

/-- The closing still to be done. -/
def Cont.rank : Cont → Nat
  | .stop rest => 7 * rest.length
  | _ => 0

/-- The steps still to be made. -/
def PC.rank : PC → Nat
  | .w1 _ _ chunks => chunks.length + 11
  | .w2 _ _ chunks => chunks.length + 10
  | .w3 _ _ _ rest => rest.length + 8
  | .w4 .. => 7
  | .w5 .. => 6
  | .w6 .. => 5
  | .w7 .. => 4
  | .w8 .. => 3
  | .w9 .. => 2
  | .w10 .. => 1
  | .r1 .. => 12
  | .r2 .. => 11
  | .r3 .. => 10
  | .r4 .. => 9
  | .r5 .. => 3
  | .r6 .. => 2
  | .r7 .. => 1
  | .c1 _ _ k => 7 + k.rank
  | .c2 _ _ k => 6 + k.rank
  | .c3 _ _ k => 5 + k.rank
  | .c4 _ _ k => 4 + k.rank
  | .c5 _ _ k => 3 + k.rank
  | .c6 _ _ k => 2 + k.rank
  | .d1 _ => 7
  | .d2 _ => 6
  | .d3 _ => 5
  | .d4 _ => 4
  | .d5 _ => 3
  | .d6 _ => 2
  | .d7 _ => 1
  | .s1 => 1
  | .s2 => 1
  | .v1 => 2
  | .v2 => 1

/-- The stages of `Shutdown` still to come. -/
def PC.stage : PC → Nat
  | .s1 => 2
  | .s2 => 1
  | _ => 0

theorem Acts.rank {g g' : G} {pc : PC} {pcs : List PC} (ha : Acts g pc g' pcs) :
    (g.crashed = none → g'.crashed ≠ none) ∨ (pcs.map PC.stage).sum < pc.stage ∨
    ((pcs.map PC.stage).sum = pc.stage ∧ (pcs.map PC.rank).sum < pc.rank) := by
  cases ha <;> simp [PC.stage, PC.rank, Cont.rank] <;> omega

/-- What decreases. -/
def State.measure (s : State) : Nat × Nat × Nat :=
  (if s.g.crashed = none then 1 else 0, (s.threads.map PC.stage).sum, (s.threads.map PC.rank).sum)

theorem steps_wf : WellFounded fun s' s : State => ∃ pc ch conns, Step s (.thread pc ch conns) s' := by
  have wf := (Prod.lex (⟨fun a b : Nat => a < b, Nat.lt_wfRel.wf⟩)
    (Prod.lex (⟨fun a b : Nat => a < b, Nat.lt_wfRel.wf⟩) (⟨fun a b : Nat => a < b, Nat.lt_wfRel.wf⟩))).wf
  refine Subrelation.wf ?_ (InvImage.wf State.measure wf)
  rintro s' s ⟨pc, ch, conns, hst⟩
  cases hst with
  | thread g g' pre post pcs pc ch conns hcr hsn hact =>
    have := (acts_of_act hact hsn).rank
    by_cases hc : g'.crashed = none
    · have h2 := this.resolve_left (fun h => h hcr hc)
      simp only [InvImage, State.measure, hc, hcr, if_true, List.map_append, List.map_cons, List.sum_append,
        List.sum_cons]
      refine .right _ ?_
      rcases h2 with h2 | ⟨h2, h3⟩
      · exact .left _ _ (by show (_ : Nat) < _; omega)
      · rw [h2]; exact .right _ (by show (_ : Nat) < _; omega)
    · simp only [InvImage, State.measure, hc, hcr, if_true, if_false]
      exact .left _ _ (by show (_ : Nat) < _; omega)

/-! ## Who waits -/

theorem waits_act {s : State} (h : AllWait s) {pc : PC} (hm : pc ∈ s.threads) (ch : Bool) (conns : List Nat)
    (hs : pc = .s2 → Snapshot s.g conns) : act s.g ch conns pc = none := by
  obtain ⟨g, ts⟩ := s
  obtain ⟨l, r, rfl⟩ := List.append_of_mem hm
  cases ha : act g ch conns pc with
  | none => rfl
  | some v => exact absurd (Step.thread g v.1 l r v.2 pc ch conns h.1 hs ha) (h.2 pc ch conns _)

section
variable {size : Nat} {s : State} {p : Nat} {x : Side}

theorem excl_eq {P : PC → Bool} {ts : List PC} (he : Excl P ts) {a b : PC} (ha : a ∈ ts) (hb : b ∈ ts) (h1 : P a = true)
    (h2 : P b = true) : a = b := by
  have := the_of_mem he ha h1
  rw [the_of_mem he hb h2] at this
  exact (Option.some.inj this).symm

/-- The invariant, of the pairs that have been dialled. -/
structure InvOf (g : G) (ts : List PC) : Prop where
  locks : ∀ p x, Locks g ts p x
  life : ∀ p, Life g ts p
  core' : ∀ p x, Ev.dialEnd p true ∈ g.log → CoreOf g ts p x

theorem InvOf.core (h : InvOf s.g s.threads) (p : Nat) (x : Side) {a : PC} (ha : a ∈ s.threads) (hu : a.uses p = true) :
    CoreOf s.g s.threads p x := h.core' p x ((h.life p).uses a ha hu)

theorem Inv.of {g : G} {ts : List PC} (h : Inv g ts) : InvOf g ts := ⟨h.locks, h.life, fun p x _ => h.core p x⟩

variable (hinv : InvOf s.g s.threads) (hsh : ∀ p, Ev.dialEnd p true ∈ s.g.log → Shut s.g s.threads p)
  (hends : ∀ p x, Ev.dialEnd p true ∈ s.g.log → Ends s.g s.threads p x)
  (hfit : ∀ p x, Fits size s.g s.threads p x)
  (hrl : ∀ p x, (s.g.sock p x).readerLock = true → ∃ a ∈ s.threads, a.sends p x = true) (hw : AllWait s)
include hinv hw

/-- Nobody waits for handing over a message. -/
theorem no_w7 {m : Bytes} (hm : .w7 p x m ∈ s.threads) : False := by
  have h1 := waits_act hw hm false [] (by simp)
  have h2 := ((hinv.core p x hm (by simp [PC.uses])).calm (.inr (by
    rw [the_of_mem (hinv.locks p x).exclW hm (by simp [PC.wr])]; simp [PC.early]))).1
  simp only [act, h2] at h1
  split at h1 <;> simp at h1

include hrl in
theorem reader_free (p : Nat) (x : Side) : (s.g.sock p x).readerLock = false := by
  cases h : (s.g.sock p x).readerLock
  · rfl
  · obtain ⟨a, ha, e⟩ := hrl p x h
    cases a <;> simp [PC.sends] at e
    exact (no_w7 hinv hw ha).elim

include hrl in
theorem no_closing {a : PC} (ha : a ∈ s.threads) : a.closing p = false := by
  cases h : a.closing p
  · rfl
  · exfalso
    have h1 := waits_act hw ha false [] (by rintro rfl; simp [PC.closing] at h)
    cases a <;> simp [PC.closing] at h <;> simp [act, reader_free hinv hrl hw, goOn] at h1 <;> grind

include hends hrl in
/-- A writer that waits for a confirmation. -/
theorem w9_waits {m : Bytes} (hm : .w9 p x m ∈ s.threads) :
    s.g.connected p = true ∧ (s.g.sock p x.other).recv = .waiting := by
  have h1 := waits_act hw hm false [] (by simp)
  have hd := (hinv.life p).uses _ hm (by simp [PC.uses])
  have h2 := (hends p x hd).recv9 _ hm (by simp [PC.is9])
  have h3 : (s.g.sock p x.other).recv = .waiting := by
    cases e : (s.g.sock p x.other).recv with
    | absent => exact absurd e h2
    | waiting => rfl
    | got b => simp [act, e] at h1
  refine ⟨?_, h3⟩
  cases hc : s.g.connected p
  · obtain ⟨a, ha, e⟩ := (hends p x hd).told hc h3
    have := no_closing (p := p) hinv hrl hw ha
    cases a <;> simp_all [PC.willTell, PC.closing]
  · rfl

include hends hrl hsh in
/-- Who is inside `Read` waits for a message. -/
theorem rd_waits {a : PC} (ha : a ∈ s.threads) (hr : a.rd p x = true) :
    s.g.connected p = true ∧ (∃ i, a = .r4 p x false i) ∧ (s.g.sock p x).chan.buf = none := by
  have hfree := reader_free hinv hrl hw
  have hcl := no_closing (p := p) hinv hrl hw ha
  have h1 := waits_act hw ha true [] (by rintro rfl; simp [PC.rd] at hr)
  have hlife := hinv.life p
  cases a with
  | r2 q y dl => simp [act] at h1; split at h1 <;> simp at h1
  | r3 q y dl => simp [act, hfree] at h1
  | r5 q y n => simp [act] at h1
  | r6 q y => simp [act] at h1; split at h1 <;> simp at h1
  | c1 q y k => simp [act] at h1; split at h1 <;> simp at h1
  | r4 q y dl i =>
    simp [PC.rd] at hr
    obtain ⟨rfl, rfl⟩ := hr
    have hgen := (hinv.core q y.other ha (by simp [PC.uses])).gen dl i
    simp only [Side.other_other] at hgen
    have hgen := hgen (the_of_mem (hinv.locks q y).exclR ha (by simp [PC.rd]))
    subst hgen
    simp only [act] at h1
    cases dl with
    | true => simp at h1
    | false =>
      simp only [Bool.false_and, Bool.false_eq_true, if_false] at h1
      split at h1
      · simp at h1
      · rename_i hb
        split at h1
        · simp at h1
        · rename_i hcd
          refine ⟨?_, ⟨_, rfl⟩, hb⟩
          cases hc : s.g.connected q
          · have := ((hsh q (hlife.uses _ ha (by simp [PC.uses]))).done (hlife.uses _ ha (by simp [PC.uses])) hc
              (fun b hb => no_closing (p := q) hinv hrl hw hb)).2 y
            exact absurd this hcd
          · rfl
  | r7 q y =>
    exfalso
    simp [PC.rd] at hr
    obtain ⟨rfl, rfl⟩ := hr
    have hpk : (s.g.sock q y).parked = true := by
      cases e : (s.g.sock q y).parked
      · simp [act, e] at h1
      · rfl
    have hE := hends q y.other (hlife.uses _ ha (by simp [PC.uses]))
    have hC := hinv.core q y.other ha (by simp [PC.uses])
    have hlk := hinv.locks q y.other
    have h3 := hE.parked
    have h4 := hE.wait
    have h5 := hC.calm
    simp only [Side.other_other] at h3 h4 h5
    cases hc : s.g.connected q
    · rw [h3 hc] at hpk; cases hpk
    · by_cases hsn : (the (PC.wr q y.other) s.threads).any (PC.sent q y.other) = false
      · rw [(h5 (.inl ⟨hc, hsn⟩)).2.2.1] at hpk; cases hpk
      · cases ht : the (PC.wr q y.other) s.threads with
        | none => rw [ht] at hsn; simp at hsn
        | some b =>
          rw [ht] at hsn
          have hb := (the_mem ht).1
          cases b <;> simp [PC.sent] at hsn
          · obtain ⟨rfl, rfl⟩ := hsn
            rename_i q m
            have h6 := waits_act hw hb false [] (by simp)
            have h7 : (s.g.sock q y).recv = .absent := by
              refine Classical.byContradiction fun e => ?_
              have := hC.recvW
              simp only [Side.other_other] at this
              obtain ⟨m, hm⟩ := this e
              rw [ht] at hm; cases hm
            simp [act, h7, hpk] at h6
          · obtain ⟨rfl, rfl⟩ := hsn
            have := w9_waits hinv hends hrl hw hb
            simp only [Side.other_other] at this
            rw [h4 this.2] at hpk; cases hpk
  | c2 q y k | c3 q y k | c4 q y k | c5 q y k | c6 q y k =>
    exfalso; cases k <;> simp_all [PC.rd, PC.closing]
  | _ => simp [PC.rd] at hr

include hends hrl hsh in
/-- Who is inside a write waits for a confirmation, and nobody reads. -/
theorem wr_waits {a : PC} (ha : a ∈ s.threads) (hr : a.wr p x = true) (hb : (s.g.sock p x).bufLock = true →
    ∃ a ∈ s.threads, a.bf p x = true) :
    s.g.connected p = true ∧ (∀ b ∈ s.threads, b.reads p x.other = false) ∧
      copies p x.other s.g.log = oks p x s.g.log := by
  have hfree := reader_free hinv hrl hw
  have h1 := waits_act hw ha true [] (by rintro rfl; simp [PC.wr] at hr)
  have hbuf : (∃ b ∈ s.threads, b.bf p x = true) → a.bf p x = true := by
    rintro ⟨b, hbm, hbf⟩
    cases hwb : b.wr p x
    · have h2 := waits_act hw hbm true [] (by rintro rfl; simp [PC.bf] at hbf)
      cases b <;> simp_all [PC.bf, PC.wr, act]
    · rw [excl_eq (hinv.locks p x).exclW ha hbm hr hwb]; exact hbf
  cases a with
  | w2 q y c => simp [act] at h1; split at h1 <;> simp at h1
  | w3 q y m c =>
    exfalso
    simp [PC.wr] at hr
    obtain ⟨rfl, rfl⟩ := hr
    cases hl : (s.g.sock q y).bufLock
    · cases c with
      | nil => simp [act] at h1
      | cons c cs => simp [act, hl] at h1; split at h1 <;> simp at h1
    · have := hbuf (hb hl); simp [PC.bf] at this
  | w4 q y m =>
    exfalso
    simp [PC.wr] at hr
    obtain ⟨rfl, rfl⟩ := hr
    cases hl : (s.g.sock q y).bufLock
    · simp [act, hl] at h1; split at h1 <;> simp at h1
    · have := hbuf (hb hl); simp [PC.bf] at this
  | w5 q y m => simp [act] at h1; split at h1 <;> simp at h1
  | w6 q y m => simp [act, hfree] at h1
  | w7 q y m => exact (no_w7 hinv hw ha).elim
  | w8 q y m =>
    exfalso
    have h7 : (s.g.sock q y.other).recv = .absent := by
      refine Classical.byContradiction fun e => ?_
      obtain ⟨m', hm⟩ := (hinv.core q y ha (by simp [PC.uses])).recvW e
      rw [the_of_mem (hinv.locks q y).exclW ha (by simp [PC.wr])] at hm; cases hm
    simp [act, h7] at h1; split at h1 <;> simp at h1
  | w9 q y m =>
    simp [PC.wr] at hr
    obtain ⟨rfl, rfl⟩ := hr
    obtain ⟨hcn, hrv⟩ := w9_waits hinv hends hrl hw ha
    have hE := hends q y ((hinv.life q).uses _ ha (by simp [PC.uses]))
    have hC := hinv.core q y ha (by simp [PC.uses])
    -- nobody holds the read lock
    have hno : ∀ b ∈ s.threads, b.rd q y.other = false := by
      intro b hbm
      cases hbr : b.rd q y.other
      · rfl
      · obtain ⟨-, ⟨i, rfl⟩, hbn⟩ := rd_waits hinv hsh hends hrl hw hbm hbr
        rcases hE.flight (.inl hrv) with e | ⟨c, hcm, e⟩
        · exact absurd hbn e
        · have := excl_eq (hinv.locks q y.other).exclR hbm hcm hbr (took_rd e)
          rw [← this] at e; simp [PC.took] at e
    refine ⟨hcn, ?_, ?_⟩
    rotate_left
    · rcases hE.flight (.inl hrv) with e | ⟨c, hcm, e⟩
      · cases hbn : (s.g.sock q y.other).chan.buf with
        | none => exact absurd hbn e
        | some n =>
          have h5 := (hC.pendChan n hbn).1
          rw [hC.sent9 m (the_of_mem (hinv.locks q y).exclW ha (by simp [PC.wr]))] at h5
          exact (List.append_inj_left' h5 rfl).symm
      · have := hno c hcm
        rw [took_rd e] at this; cases this
    intro b hbm
    clear hC
    cases hbr : b.reads q y.other
    · rfl
    · have hn := hno b hbm
      have hheld := hE.heldR
      clear hE
      cases b with
      | r1 q' y' dl =>
        simp [PC.reads] at hbr
        obtain ⟨rfl, rfl⟩ := hbr
        have h2 := waits_act hw hbm true [] (by simp)
        cases hl : (s.g.sock q' y.other).readLock
        · simp [act, hl] at h2
        · obtain ⟨c, hcm, e⟩ := hheld hl
          rw [hno c hcm] at e; cases e
      | c1 q y k | c2 q y k | c3 q y k | c4 q y k | c5 q y k | c6 q y k =>
        clear hends hinv hsh hrl hw hheld
        cases k <;> simp_all [PC.rd, PC.reads]
      | _ => clear hends hinv hsh hrl hw hheld; simp_all [PC.rd, PC.reads]
  | _ => simp [PC.wr] at hr

include hends hrl hsh hfit in
/-- Everybody who waits has a reason. -/
theorem all_may_wait (hsnap : ∃ conns, Snapshot s.g conns) {a : PC} (ha : a ∈ s.threads) : MayWait s a := by
  have hfree := reader_free hinv hrl hw
  have hrd : ∀ p x, ∀ b ∈ s.threads, b.rd p x = true → s.g.connected p = true ∧
      (∃ a ∈ s.threads, a.readsForEver p x = true) ∧ flushes p x.other s.g.log = copies p x s.g.log := by
    intro p x b hbm hbr
    obtain ⟨h1, ⟨i, rfl⟩, h3⟩ := rd_waits hinv hsh hends hrl hw hbm hbr
    refine ⟨h1, ⟨_, hbm, by simp [PC.readsForEver]⟩, ?_⟩
    have := (hinv.core p x.other hbm (PC.rd_uses hbr)).pendNone
    simp only [Side.other_other] at this
    refine this h3 fun n e => ?_
    rw [the_of_mem (hinv.locks p x).exclR hbm hbr] at e; cases e
  have hwr : ∀ p x, ∀ b ∈ s.threads, b.wr p x = true → s.g.connected p = true ∧
      (∀ b ∈ s.threads, b.reads p x.other = false) ∧ copies p x.other s.g.log = oks p x s.g.log := fun p x b hbm hbr =>
    wr_waits hinv hsh hends hrl hw hbm hbr (hfit p x).heldB
  cases a with
  | w1 q y c =>
    have h1 := waits_act hw ha true [] (by simp)
    cases hl : (s.g.sock q y).writerLock
    · simp [act, hl] at h1
    · obtain ⟨b, hbm, e⟩ := (hfit q y).heldW hl
      have := hwr q y b hbm e
      exact .inr ⟨q, y, this.1, .inr ⟨by simp [PC.writes], this.2⟩⟩
  | r1 q y dl =>
    have h1 := waits_act hw ha true [] (by simp)
    cases hl : (s.g.sock q y).readLock
    · simp [act, hl] at h1
    · have := (hends q y.other ((hinv.life q).uses _ ha (by simp [PC.uses]))).heldR
      simp only [Side.other_other] at this
      obtain ⟨b, hbm, e⟩ := this hl
      have := hrd q y b hbm e
      exact .inr ⟨q, y, this.1, .inl ⟨by simp [PC.reads], this.2⟩⟩
  | w2 q y _ | w3 q y _ _ | w4 q y _ | w5 q y _ | w6 q y _ | w7 q y _ | w8 q y _ | w9 q y _ =>
    have := hwr q y _ ha (by simp [PC.wr])
    exact .inr ⟨q, y, this.1, .inr ⟨by simp [PC.writes], this.2⟩⟩
  | r2 q y _ | r3 q y _ | r4 q y _ _ | r5 q y _ | r6 q y | r7 q y =>
    have := hrd q y _ ha (by simp [PC.rd])
    exact .inr ⟨q, y, this.1, .inl ⟨by simp [PC.reads], this.2⟩⟩
  | w10 q y m r => have h1 := waits_act hw ha true [] (by simp); simp [act] at h1
  | c1 q y k => have h1 := waits_act hw ha true [] (by simp); simp [act] at h1; split at h1 <;> simp at h1
  | c2 q y k | c3 q y k | c4 q y k | c5 q y k | c6 q y k =>
    have := no_closing (p := q) hinv hrl hw ha; simp [PC.closing] at this
  | d1 q => have h1 := waits_act hw ha true [] (by simp); simp [act] at h1
  | d2 q | d5 q | d6 q =>
    have h1 := waits_act hw ha true [] (by simp); simp [act] at h1; split at h1 <;> simp at h1
  | d3 q | d4 q | d7 q => have h1 := waits_act hw ha true [] (by simp); simp [act, hfree] at h1
  | s1 | v1 => have h1 := waits_act hw ha true [] (by simp); simp [act] at h1; split at h1 <;> simp at h1
  | s2 =>
    obtain ⟨conns, hc⟩ := hsnap
    have h1 := waits_act hw ha true conns (fun _ => hc)
    cases conns <;> simp [act] at h1
  | v2 =>
    have h1 := waits_act hw ha true [] (by simp)
    refine .inl ⟨rfl, ?_⟩
    cases e : s.g.active
    · simp [act, e] at h1
    · rfl

end

end Webwire.Mem
