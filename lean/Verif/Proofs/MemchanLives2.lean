import Verif.Proofs.Memchan11
import Verif.Proofs.MemchanLives

/-!
# memchan: closing pairs that are dialled again
-/

set_option autoImplicit false

namespace Webwire.Mem

/-- The state of the channels of a pair; `l` is the part of the log that matters. -/
structure LShut (g : G) (l : List Ev) (ts : List PC) (p : Nat) : Prop where
  on : Ev.dialEnd p true ∈ l → Shut (g.relog l) ts p
  off : Ev.dialEnd p true ∉ l → g.connected p = true → .d3 p ∈ ts ∨ ((g.sock p .clt).chan.closed = false ∧
    (.d4 p ∈ ts ∨ (g.sock p .srv).chan.closed = false))
  closed : ∀ x, Ev.closeEnd p x ∈ l → Ev.dialEnd p true ∈ l ∧ g.connected p = false
  piece : Ev.dialEnd p true ∈ l → ∀ x, (Ev.closeEnd p x ∈ l ↔ Ev.closeEnd p x ∈ lastLife p g.log)
  lock : ∀ x, (g.sock p x).readerLock = true → ∃ a ∈ ts, a.sends p x = true

section
variable {g g' : G} {pc : PC} {pcs rest ts : List PC} {p : Nat} {x : Side} {l l' : List Ev}

theorem handsOver_uses {a : PC} (h : a.handsOver p = true) : a.uses p = true := by
  cases a <;> simp_all [PC.handsOver, PC.uses]

theorem Excl.ofNone {P : PC → Bool} {ts : List PC} (h : ∀ a ∈ ts, P a = false) : Excl P ts := by
  induction ts with
  | nil => exact Excl.nil.mpr trivial
  | cons a t ih => exact Excl.cons.mpr ⟨fun _ b hb => h b (by simp [hb]), ih fun b hb => h b (by simp [hb])⟩

/-- What matters of the log. -/
theorem Shut.relog (h : Shut (g.relog l) ts p) (hl : Ev.dialEnd p true ∈ l' ↔ Ev.dialEnd p true ∈ l) :
    Shut (g.relog l') ts p := by
  obtain ⟨h1, h2, h3, h4, h5, h6, h7, h8⟩ := h
  simp only [log_relog, conn_relog, sock_relog, listed_relog] at h2 h3 h4 h5 h6 h7 h8
  constructor
  · exact h1
  · simp only [log_relog, conn_relog, sock_relog, hl]; exact h2
  · exact h3
  · exact h4
  · exact h5
  · exact h6
  · exact h7
  · simp only [log_relog, conn_relog, sock_relog, listed_relog, hl]; exact h8

/-- How `Close` ends. -/
theorem Acts.closeEnds (ha : Acts g pc g' pcs) (p : Nat) (x : Side) :
    (∀ e, g'.log = g.log ++ [e] → e = .closeEnd p x → pc.uses p = true ∧
      (g.connected p = false ∨ pc.closing p = true) ∧ g'.connected p = g.connected p) ∧
    (g'.connected p = true → g.connected p = true ∨ pc.dials p = true) ∧
    ((g'.sock p x).readerLock = true → (∃ b ∈ pcs, b.sends p x = true) ∨
      ((g.sock p x).readerLock = true ∧ pc.sends p x = false)) := by
  refine ⟨?_, ?_, ?_⟩
  · cases ha <;> simp [PC.uses, PC.closing] <;> grind
  · cases ha <;> simp [PC.dials] <;> grind
  · cases ha <;> simp [PC.sends, Sock.setChan, Sock.reset, Sock.put] <;> grind [Side.other_other]

theorem LShut.acts (hi : LInv g l (pc :: rest)) (h : LShut g l (pc :: rest) p) (ha : Acts g pc g' pcs)
    (hl : l' = l ∧ g'.log = g.log ∨ ∃ e, g'.log = g.log ++ [e] ∧ l' = l ++ [e])
    (hr : Acts (g.relog l) pc (g'.relog l') pcs) (hi' : LInv g' l' (pcs ++ rest))
    (hok : ∀ x k, pc = .c1 p x k → ∀ a ∈ rest, a.handsOver p = false) : LShut g' l' (pcs ++ rest) p := by
  have hlife := hi.life p
  have hsub : ∀ e, e ∈ l → e ∈ l' := by
    intro e he
    rcases hl with ⟨rfl, _⟩ | ⟨_, _, rfl⟩
    · exact he
    · simp [he]
  have hmem : Ev.dialEnd p true ∈ l' → Ev.dialEnd p true ∈ l ∨ (pc = .d7 p ∧ pcs = [] ∧ Ev.dialEnd p true ∉ l) := by
    intro hm
    by_cases hm' : Ev.dialEnd p true ∈ l
    · exact .inl hm'
    · rcases hr.dialEnd p hm with h' | ⟨h1, h2⟩
      · exact .inl h'
      · exact .inr ⟨h1, h2, hm'⟩
  constructor
  · intro hm
    rcases hmem hm with hm' | ⟨rfl, rfl, hn⟩
    · exact Shut.acts hlife (h.on hm') hr hok
    · -- the pair has been dialled: nobody uses it
      have hno : ∀ a ∈ rest, a.uses p = false := by
        intro a ha'
        cases hu : a.uses p
        · rfl
        · exact absurd (hlife.uses a (by simp [ha']) hu) hn
      have hx := (Excl.cons.mp hlife.excl).1 (by simp [PC.dials])
      have hc : g.connected p = true := (hi.rest p hn).conn (.d7 p) (by simp) (by simp)
      have h3 : PC.d3 p ∉ rest := fun hm => by have := hx _ hm; simp [PC.dials] at this
      have h4 : PC.d4 p ∉ rest := fun hm => by have := hx _ hm; simp [PC.dials] at this
      have hop : ∀ y, (g.sock p y).chan.closed = false := by
        have := h.off hn hc
        simp [h3, h4] at this
        intro y; cases y
        · exact this.2
        · exact this.1
      have hcl : ∀ a ∈ rest, a.closing p = false := by
        intro a ha'
        cases hu : a.closing p
        · rfl
        · have := closing_uses hu; rw [hno a ha'] at this; cases this
      cases ha
      simp only [List.nil_append]
      constructor
      · exact Excl.ofNone hcl
      · intro _ y; simpa using hop y
      · intro a hm' y hy; have := hcl a hm'; rw [isC2_closing hy] at this; cases this
      · intro a hm' y hy; have := hcl a hm'; rw [half_closing hy] at this; cases this
      · intro a hm' hy; have := hcl a hm'; rw [isC6_closing hy] at this; cases this
      · intro a hm' hy; have := hno a hm'; rw [handsOver_uses hy] at this; cases this
      · intro a hm' hy; have := hx a hm'; rw [dialling_dials hy] at this; cases this
      · intro _ hcc; simp [hc] at hcc
  · intro hn hc
    have hn' : Ev.dialEnd p true ∉ l := fun hm => hn (hsub _ hm)
    have hu : pc.uses p = false := by
      cases hu : pc.uses p
      · rfl
      · exact absurd (hlife.uses pc (by simp) hu) hn'
    obtain ⟨a1, a2, a3, a4⟩ := ha.away p hu
    obtain ⟨b1, b2, b3, b4, b5, b6, b7, b8⟩ := ha.dialling p
    have hx := (Excl.cons.mp hlife.excl).1
    have h4 := h.off hn'
    by_cases e2 : pc = .d2 p
    · rcases (b6 e2).2 with h' | h'
      · exact .inl (by simp [h'])
      · have hs := h4 h'
        have hq : Sock.chan (g'.sock p .clt) = (g.sock p .clt).chan := by rw [a1 (by simp [e2]) _ rfl]
        have hq' : Sock.chan (g'.sock p .srv) = (g.sock p .srv).chan := by rw [a2 (by simp [e2]) _ rfl]
        rw [hq, hq']
        simp [e2] at hs
        grind
    · rw [a3 e2] at hc
      have hs := h4 hc
      by_cases e3 : pc = .d3 p
      · have := b7 e3
        refine .inr ⟨by simp [this.2, Sock.chan, Sock.reset, Sock.setChan], .inl (by simp [this.1])⟩
      · by_cases e4 : pc = .d4 p
        · have := b8 e4
          have hd3 : .d3 p ∉ rest := fun hm => by
            have := hx (by simp [e4, PC.dials]) _ hm
            simp [PC.dials] at this
          refine .inr ⟨?_, .inr (by simp [this.2, Sock.chan, Sock.reset, Sock.setChan])⟩
          rw [a1 e3 _ rfl]
          grind
        · rw [a1 e3 _ rfl, a2 e4 _ rfl]
          simp only [List.mem_cons, List.mem_append] at hs ⊢
          grind
  · intro x hm
    obtain ⟨c1, c2, c3⟩ := ha.closeEnds p x
    have hkey : Ev.closeEnd p x ∈ l ∨ (Ev.dialEnd p true ∈ l ∧ g'.connected p = false) := by
      rcases hl with ⟨rfl, _⟩ | ⟨e, he, rfl⟩
      · exact .inl hm
      · rcases List.mem_append.mp hm with hm | hm
        · exact .inl hm
        · have he' : e = .closeEnd p x := by simpa [eq_comm] using hm
          obtain ⟨d1, d2, d3⟩ := c1 e he he'
          refine .inr ⟨hlife.uses pc (by simp) d1, ?_⟩
          rw [d3]
          rcases d2 with d2 | d2
          · exact d2
          · exact hlife.closing pc (by simp) d2
    rcases hkey with hk | ⟨h1, h2⟩
    · obtain ⟨h1, h2⟩ := h.closed x hk
      refine ⟨hsub _ h1, ?_⟩
      cases hc : g'.connected p
      · rfl
      · rcases c2 hc with c | c
        · rw [h2] at c; cases c
        · exact absurd h1 (hlife.dials pc (by simp) c)
    · exact ⟨hsub _ h1, h2⟩
  · intro hm x
    rcases hmem hm with hm' | ⟨rfl, rfl, hn⟩
    · have hp := h.piece hm' x
      rcases hl with ⟨rfl, hlog⟩ | ⟨e, hlog, rfl⟩
      · rw [hlog]; exact hp
      · have hne : e ≠ .dialEnd p true := by
          rintro rfl
          rcases (ha.lists p).2.1 _ hlog with h' | ⟨hd, _⟩
          · simp [Ev.dialOf] at h'
          · exact hlife.dials pc (by simp) hd hm'
        rw [hlog, lastLife_ev, if_neg hne]
        simp [hp]
    · have hno : Ev.closeEnd p x ∉ l := fun hc => hn (h.closed x hc).1
      cases ha
      rcases hl with ⟨rfl, hlog⟩ | ⟨e, hlog, rfl⟩
      · simp at hlog
      · have he : e = .dialEnd p true := by simpa [eq_comm] using hlog
        subst he
        rw [hlog, lastLife_ev, if_pos rfl]
        simp [hno]
  · intro x hlk
    rcases (ha.closeEnds p x).2.2 hlk with ⟨b, hb, hs⟩ | ⟨h1, h2⟩
    · exact ⟨b, List.mem_append.mpr (.inl hb), hs⟩
    · obtain ⟨a, ha', hs⟩ := h.lock x h1
      rcases List.mem_cons.mp ha' with rfl | ha'
      · rw [h2] at hs; cases hs
      · exact ⟨a, List.mem_append.mpr (.inr ha'), hs⟩

theorem LShut.perm (h : LShut g l ts p) {ts' : List PC} (hp : ts.Perm ts') : LShut g l ts' p := by
  refine ⟨fun hm => (h.on hm).perm hp, fun hm hc => ?_, h.closed, h.piece, fun x hl => ?_⟩
  · rw [← hp.mem_iff, ← hp.mem_iff]; exact h.off hm hc
  · obtain ⟨a, ha, hs⟩ := h.lock x hl; exact ⟨a, hp.mem_iff.mp ha, hs⟩

theorem LShut.add {a : PC} (h : LShut g l ts p) (h1 : a.closing p = false) (h2 : a.handsOver p = false)
    (h3 : a.dialling p = false) : LShut g l (a :: ts) p := by
  refine ⟨fun hm => (h.on hm).add h1 h2 h3, fun hm hc => ?_, h.closed, h.piece, fun x hl => ?_⟩
  · rcases h.off hm hc with h | ⟨h, h' | h'⟩
    · exact .inl (by simp [h])
    · exact .inr ⟨h, .inl (by simp [h'])⟩
    · exact .inr ⟨h, .inr h'⟩
  · obtain ⟨b, hb, hs⟩ := h.lock x hl; exact ⟨b, by simp [hb], hs⟩

/-- A pair is dialled; it may be another one. -/
theorem LShut.dial {q : Nat} (h : LShut g l ts p) (hm : ∀ e : Ev, e.about q = false → (e ∈ l' ↔ e ∈ l))
    (hn : Ev.dialEnd q true ∉ l') (hc : Ev.dialEnd q true ∈ l → g.connected q = false)
    (hi : ∀ x, q = p → Ev.closeEnd q x ∉ l') : LShut g l' ts p := by
  by_cases hq : q = p
  · subst hq
    refine ⟨fun hm => absurd hm hn, fun _ hcon => ?_, fun x hx => absurd hx (hi x rfl), fun hm => absurd hm hn, h.lock⟩
    by_cases hd : Ev.dialEnd q true ∈ l
    · rw [hc hd] at hcon; cases hcon
    · exact h.off hd hcon
  · have e1 := hm (.dialEnd p true) (by simp [Ev.about]; exact fun e => hq e.symm)
    have e2 : ∀ x, Ev.closeEnd p x ∈ l' ↔ Ev.closeEnd p x ∈ l := fun x =>
      hm (.closeEnd p x) (by simp [Ev.about]; exact fun e => hq e.symm)
    refine ⟨fun h' => (h.on (e1.mp h')).relog e1, fun h' => h.off (fun c => h' (e1.mpr c)), fun x hx => ?_,
      fun h' x => ?_, h.lock⟩
    · rw [e1]; exact h.closed x ((e2 x).mp hx)
    · rw [e2]; exact h.piece (e1.mp h') x

end

/-- The channels of all pairs; nothing has panicked. -/
def LK (g : G) (l : List Ev) (ts : List PC) : Prop := (∀ p, LShut g l ts p) ∧ g.crashed = none

section
variable {g g' : G} {pc : PC} {pcs rest ts : List PC} {l l' : List Ev}

theorem LK.acts (hi : LInv g l (pc :: rest)) (h : LK g l (pc :: rest)) (ha : Acts g pc g' pcs)
    (hl : l' = l ∧ g'.log = g.log ∨ ∃ e, g'.log = g.log ++ [e] ∧ l' = l ++ [e])
    (hr : Acts (g.relog l) pc (g'.relog l') pcs) (hi' : LInv g' l' (pcs ++ rest))
    (hok : ∀ p x k, pc = .c1 p x k → ∀ a ∈ rest, a.handsOver p = false) : LK g' l' (pcs ++ rest) := by
  refine ⟨fun p => (h.1 p).acts hi ha hl hr hi' (hok p), ?_⟩
  rcases ha.crash with e | ⟨p, x, hcl, hh⟩
  · rw [e, h.2]
  · have hu : pc.uses p = true := by
      rcases hh with hh | hh | hh
      · exact handsOver_uses hh
      · exact closing_uses (isC2_closing hh)
      · exact closing_uses (half_closing hh)
    have hs := (h.1 p).on ((hi.life p).uses pc (by simp) hu)
    rcases hh with hh | hh | hh
    · have := hs.live (.inl (hs.over pc List.mem_cons_self hh)) x
      rw [sock_relog, hcl] at this; cases this
    · have := hs.c2 pc List.mem_cons_self _ hh x
      rw [sock_relog, hcl] at this; cases this
    · have := (hs.half pc List.mem_cons_self _ hh).1
      rw [sock_relog, hcl] at this; cases this

theorem LK.add {a : PC} (h : LK g l ts) (hf : a.fresh = true) : LK g l (a :: ts) := by
  refine ⟨fun p => (h.1 p).add ?_ ?_ ?_, h.2⟩ <;> cases a <;> simp_all [PC.fresh, PC.closing, PC.handsOver, PC.dialling]

theorem LK.dial {p : Nat} (h : LK g l ts) (hm : ∀ e : Ev, e.about p = false → (e ∈ l' ↔ e ∈ l)) (hn : Ev.dialEnd p true ∉ l')
    (hcl : Ev.dialEnd p true ∈ l → g.connected p = false ∧ ∀ e ∈ l', e.about p = false) (hsub : ∀ e ∈ l', e ∈ l) :
    LK g l' (.d1 p :: ts) := by
  refine ⟨fun q => LShut.add (LShut.dial (h.1 q) hm hn (fun h' => (hcl h').1) ?_) rfl rfl rfl, h.2⟩
  rintro x rfl hx
  have := (hcl ((h.1 p).closed x (hsub _ hx)).1).2 _ hx
  simp [Ev.about] at this

theorem LK.refuse (h : LK g l ts) : LK g.refuse l ts := by
  refine ⟨fun p => ?_, h.2⟩
  obtain ⟨h1, h2, h3, h4, h5⟩ := h.1 p
  refine ⟨fun hm => ?_, h2, h3, h4, h5⟩
  obtain ⟨h1, h2, h3, h4, h5, h6, h7, h8⟩ := h1 hm; exact ⟨h1, h2, h3, h4, h5, h6, h7, h8⟩

theorem LK.initial (size : Nat) : LK (init size).g [] (init size).threads := by
  refine ⟨fun p => ⟨by simp, ?_, by simp, by simp, ?_⟩, rfl⟩ <;> simp [init, G.connected, G.sock]

end

/-- If no pair is closed while a writer hands over its message, nothing panics; in any life. -/
theorem LShut.reachable {ok : State → Label → Prop} (hok : ∀ s l, ok s l → CalmLives s l) {size : Nat} {s : State}
    (h : ReachableIf size ok s) :
    ∃ l, LInv s.g l s.threads ∧ (∀ p, LShut s.g l s.threads p) ∧ s.g.crashed = none := by
  refine From.livesWith (ok := ok) (fun s l h => (hok s l h).1) (K := LK) ?_ ?_ ?_ ?_ ?_ (LK.initial size) h
  · exact fun g l ts ts' h hp => ⟨fun p => (h.1 p).perm hp, h.2⟩
  · intro g l pc rest ts ch conns g' pcs l' hi h hp ho ha hl hr hi'
    refine h.acts hi ha hl hr hi' ?_
    rintro p x k rfl a hm
    exact (hok _ _ ho).2 a (hp.mem_iff.mpr (List.mem_cons_of_mem _ hm))
  · exact fun g l ts a h hf => h.add hf
  · exact fun g l l' ts p h _ hm hn hcl hsub _ _ => h.dial hm hn hcl hsub
  · exact fun g l ts h => h.refuse

/-! ## Who still has to go on -/

/-- What nobody waits for in vain. -/
structure LEnds (g : G) (l : List Ev) (ts : List PC) (p : Nat) (x : Side) : Prop where
  on : Ev.dialEnd p true ∈ l → Ends (g.relog l) ts p x
  off : Ev.dialEnd p true ∉ l → (g.sock p x.other).readLock = false

section
variable {g g' : G} {pc : PC} {pcs rest ts : List PC} {p : Nat} {x : Side} {l l' : List Ev}

theorem LEnds.acts (hi : LInv g l (pc :: rest)) (hk : LK g l (pc :: rest)) (h : LEnds g l (pc :: rest) p x)
    (ha : Acts g pc g' pcs) (hl : l' = l ∧ g'.log = g.log ∨ ∃ e, g'.log = g.log ++ [e] ∧ l' = l ++ [e])
    (hr : Acts (g.relog l) pc (g'.relog l') pcs)
    (hq : ∀ z k, pc = .c1 p z k → (∀ a ∈ rest, a.handedOver p = false) ∧
      ((g.sock p x.other).recv = .waiting → ∀ a ∈ rest, a.reading p x.other = false)) : LEnds g' l' (pcs ++ rest) p x := by
  have hlife := hi.life p
  have hsub : ∀ e, e ∈ l → e ∈ l' := by
    intro e he
    rcases hl with ⟨rfl, _⟩ | ⟨_, _, rfl⟩
    · exact he
    · simp [he]
  constructor
  · intro hm
    by_cases hm' : Ev.dialEnd p true ∈ l
    · exact Ends.acts hlife ((hi.locks p x).relog l) ((hi.locks p x.other).relog l) (hi.core p x hm') ((hk.1 p).on hm')
        (h.on hm') hr hq
    · rcases hr.dialEnd p hm with h' | ⟨rfl, rfl⟩
      · exact absurd h' hm'
      · have hno : ∀ a ∈ rest, a.uses p = false := by
          intro a ha'
          cases hu : a.uses p
          · rfl
          · exact absurd (hlife.uses a (by simp [ha']) hu) hm'
        have hoff := h.off hm'
        obtain ⟨r1, r2, r3⟩ := (hi.rest p hm').sock x.other
        cases ha
        simp only [List.nil_append]
        constructor
        · intro hlk; simp [hoff] at hlk
        · intro a ham h9; have := hno a ham; rw [is9_uses h9] at this; cases this
        · intro hw; simpa using r2
        · rintro (hw | ⟨_, a, ham, h8⟩)
          · simp [r1] at hw
          · have := hno a ham; rw [is8_uses h8] at this; cases this
        · intro a ham h8; have := hno a ham; rw [is8_uses h8] at this; cases this
        · intro _ hw; simp [r1] at hw
        · intro _; simpa using r2
        · intro _ a ham
          cases ht : a.took p x.other
          · rfl
          · have := hno a ham; rw [took_uses ht] at this; cases this
        · intro _ a ham ht; have := hno a ham; rw [takes_uses ht] at this; cases this
  · intro hn
    have hn' : Ev.dialEnd p true ∉ l := fun hm => hn (hsub _ hm)
    have hu : pc.uses p = false := by
      cases hu : pc.uses p
      · rfl
      · exact absurd (hlife.uses pc (by simp) hu) hn'
    have hoff := h.off hn'
    obtain ⟨a1, a2, -⟩ := ha.away p hu
    obtain ⟨-, -, -, -, -, -, b7, b8⟩ := ha.dialling p
    cases hxo : x.other
    · rw [hxo] at hoff
      by_cases e : pc = .d4 p
      · rw [(b8 e).2]; simpa [Sock.reset, Sock.setChan] using hoff
      · rw [a2 e _ rfl]; exact hoff
    · rw [hxo] at hoff
      by_cases e : pc = .d3 p
      · rw [(b7 e).2]; simpa [Sock.reset, Sock.setChan] using hoff
      · rw [a1 e _ rfl]; exact hoff

theorem LEnds.perm (h : LEnds g l ts p x) {ts' : List PC} (hp : ts.Perm ts') : LEnds g l ts' p x :=
  ⟨fun hm => (h.on hm).perm hp, h.off⟩

theorem Ends.relog (h : Ends (g.relog l) ts p x) (l' : List Ev) : Ends (g.relog l') ts p x := by
  obtain ⟨h1, h2, h3, h4, h5, h6, h7, h8, h9⟩ := h; exact ⟨h1, h2, h3, h4, h5, h6, h7, h8, h9⟩

theorem LEnds.add {a : PC} (h : LEnds g l ts p x) (hf : a.fresh = true) : LEnds g l (a :: ts) p x := by
  refine ⟨fun hm => (h.on hm).add ?_ ?_ ?_ ?_, h.off⟩ <;>
    cases a <;> simp_all [PC.fresh, PC.is9, PC.is8, PC.took, PC.takes]

theorem LEnds.dial {q : Nat} (h : LEnds g l ts p x) (hi : LInv g l' (.d1 q :: ts))
    (hm : ∀ e : Ev, e.about q = false → (e ∈ l' ↔ e ∈ l)) (hn : Ev.dialEnd q true ∉ l') :
    LEnds g l' (.d1 q :: ts) p x := by
  by_cases hq : q = p
  · subst hq
    refine ⟨fun h' => absurd h' hn, fun _ => ?_⟩
    by_cases hd : Ev.dialEnd q true ∈ l
    · cases hlk : (g.sock q x.other).readLock
      · rfl
      · obtain ⟨a, ha, hr⟩ := (h.on hd).heldR hlk
        exact absurd ((hi.life q).uses a (by simp [ha]) (PC.rd_uses hr)) hn
    · exact h.off hd
  · have e1 := hm (.dialEnd p true) (by simp [Ev.about]; exact fun e => hq e.symm)
    exact ⟨fun h' => (((h.on (e1.mp h')).relog l').add rfl rfl rfl rfl), fun h' => h.off fun c => h' (e1.mpr c)⟩

end

/-- Under `QuietLives`, nobody waits in vain. -/
theorem LEnds.reachable {ok : State → Label → Prop} (hok : ∀ s l, ok s l → QuietLives s l) {size : Nat} {s : State}
    (h : ReachableIf size ok s) :
    ∃ l, LInv s.g l s.threads ∧ LK s.g l s.threads ∧ ∀ p x, LEnds s.g l s.threads p x := by
  refine From.livesWith (ok := ok) (fun s l h => (hok s l h).1.1)
    (K := fun g l ts => LK g l ts ∧ ∀ p x, LEnds g l ts p x) ?_ ?_ ?_ ?_ ?_
    ⟨LK.initial size, fun p x => ⟨by simp, by simp [init, G.sock]⟩⟩ h
  · exact fun g l ts ts' h hp => ⟨⟨fun p => (h.1.1 p).perm hp, h.1.2⟩, fun p x => (h.2 p x).perm hp⟩
  · intro g l pc rest ts ch conns g' pcs l' hi h hp ho ha hl hr hi'
    have hmem : ∀ a ∈ rest, a ∈ ts := fun a hm => hp.mem_iff.mpr (List.mem_cons_of_mem _ hm)
    refine ⟨h.1.acts hi ha hl hr hi' ?_, fun p x => (h.2 p x).acts hi h.1 ha hl hr ?_⟩
    · rintro p x k rfl a hm
      exact (hok _ _ ho).1.2 a (hmem a hm)
    · rintro z k rfl
      have := (hok _ _ ho).2
      exact ⟨fun a hm => this.1 a (hmem a hm), fun e a hm => this.2 x.other e a (hmem a hm)⟩
  · exact fun g l ts a h hf => ⟨h.1.add hf, fun p x => (h.2 p x).add hf⟩
  · exact fun g l l' ts p h _ hm hn hcl hsub _ hi' => ⟨h.1.dial hm hn hcl hsub, fun q x => (h.2 q x).dial hi' hm hn⟩
  · refine fun g l ts h => ⟨h.1.refuse, fun p x => ⟨fun hm => ?_, (h.2 p x).off⟩⟩
    obtain ⟨h1, h2, h3, h4, h5, h6, h7, h8, h9⟩ := (h.2 p x).on hm; exact ⟨h1, h2, h3, h4, h5, h6, h7, h8, h9⟩

/-! ## What does not depend on the log -/

theorem Fits.relog {size : Nat} {g : G} {ts : List PC} {p : Nat} {x : Side} (h : Fits size g ts p x) (l : List Ev) :
    Fits size (g.relog l) ts p x := by
  cases h; constructor <;> assumption

theorem act_relog {g : G} {l : List Ev} {ch : Bool} {conns : List Nat} {pc : PC} (h : act g ch conns pc = none) :
    act (g.relog l) ch conns pc = none := by
  have ea : (g.relog l).active = g.active := rfl
  cases pc with
  | w3 p x m c => cases c <;> simp only [act, sock_relog] at h ⊢ <;> grind
  | w9 p x m => simp only [act, sock_relog] at h ⊢; split at h <;> simp_all
  | r4 p x dl i => simp only [act, sock_relog] at h ⊢; grind
  | _ => simp only [act, sock_relog, conn_relog, ea] at h ⊢ <;> grind

theorem AllWait.relog {s : State} (h : AllWait s) {l : List Ev} : AllWait ⟨s.g.relog l, s.threads⟩ := by
  refine ⟨h.1, fun pc ch conns s' hst => ?_⟩
  obtain ⟨g, ts⟩ := s
  generalize hq : (⟨g.relog l, ts⟩ : State) = q at hst
  cases hst with
  | thread g1 g' pre post pcs pc ch conns hcr hsn hact =>
    simp only [State.mk.injEq] at hq
    obtain ⟨rfl, rfl⟩ := hq
    have hn := waits_act h (pc := pc) (by simp) ch conns hsn
    rw [act_relog hn] at hact
    cases hact

theorem reads_uses {a : PC} {p : Nat} {x : Side} (h : a.reads p x = true) : a.uses p = true := by
  cases a with
  | c1 q y k | c2 q y k | c3 q y k | c4 q y k | c5 q y k | c6 q y k => cases k <;> simp_all [PC.reads, PC.uses, Cont.uses]
  | _ => simp_all [PC.reads, PC.uses]

theorem writes_uses {a : PC} {p : Nat} {x : Side} (h : a.writes p x = true) : a.uses p = true := by
  cases a <;> simp_all [PC.writes, PC.uses]

end Webwire.Mem
