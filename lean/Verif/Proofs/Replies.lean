import Verif.Spec.Replies
import Verif.Props.Pool
import Verif.Props.RequestManager
import Verif.Props.Wire2
import Mathlib.Data.List.Perm.Basic

/-!
# Lemmas on replies
-/

set_option autoImplicit false

namespace Webwire.Replies
open Spec

/-- What the record says about the message is true of it. -/
def Right (size : Nat) (m : Msg) : Mark → Prop
  | .fresh => Clean m ∧ m.buf.length = size
  | .has bs => ∃ m0, Clean m0 ∧ m0.buf.length = size ∧ m0.readBytes bs = .ok (m, true, none)
  | .other => True

structure Inv (size : Nat) (s : State) : Prop where
  req : Req.Reachable s.req
  hist : ∃ held, History size s.pool held ∧ held.Perm ((inUse s).map Prod.fst)
  right : ∀ x ∈ inUse s, ∃ m, s.pool.heap[x.1]? = some m ∧ Right size m x.2
  looking : ∀ c k i mk, .looking c k (.msg i mk) ∈ s.req.threads → ∃ m, s.pool.heap[i]? = some m ∧ m.ident = k
  removing : ∀ c r k i mk, .removing c r k (.msg i mk) ∈ s.req.threads →
    ∃ m, s.pool.heap[i]? = some m ∧ m.ident = k
  called : ∀ c k i mk, .called c k (.msg i mk) ∈ s.req.g.log → ∃ m, Right size m mk ∧ m.ident = k

theorem Inv.nodup {size : Nat} {s : State} (h : Inv size s) : ((inUse s).map Prod.fst).Nodup := by
  obtain ⟨held, hh, hp⟩ := h.hist
  exact hp.nodup_iff.mp (C16_never_handed_out_twice size s.pool held hh).1

/-- Everything but the list of messages in use, for a step that leaves the request manager alone and changes at most one
message, which is in no list afterwards or for which it is shown separately. -/
theorem Inv.pool {size : Nat} {s s' : State} (h : Inv size s) (hq : s'.req = s.req) (i : Nat)
    (hheap : ∀ j, j ≠ i → j < s.pool.heap.length → s'.pool.heap[j]? = s.pool.heap[j]?)
    (hi : i ∉ (s.req.threads.filterMap carries).map Prod.fst)
    (hhist : ∃ held, History size s'.pool held ∧ held.Perm ((inUse s').map Prod.fst))
    (hright : ∀ x ∈ inUse s', x.1 = i → ∃ m, s'.pool.heap[x.1]? = some m ∧ Right size m x.2)
    (hold : ∀ x ∈ inUse s', x.1 ≠ i → x ∈ inUse s) : Inv size s' := by
  have lt : ∀ (j : Nat) (m : Msg), s.pool.heap[j]? = some m → j < s.pool.heap.length := fun j m hm =>
    (List.getElem?_eq_some_iff.mp hm).1
  refine ⟨hq ▸ h.req, hhist, ?_, ?_, ?_, ?_⟩
  · intro x hx
    by_cases hxi : x.1 = i
    · exact hright x hx hxi
    · obtain ⟨m, hm, hr⟩ := h.right x (hold x hx hxi)
      exact ⟨m, by rw [hheap _ hxi (lt _ _ hm)]; exact hm, hr⟩
  · intro c k j mk hj
    rw [hq] at hj
    obtain ⟨m, hm, hk⟩ := h.looking c k j mk hj
    have hji : j ≠ i := by
      rintro rfl
      exact hi (List.mem_map.mpr ⟨(j, mk), List.mem_filterMap.mpr ⟨_, hj, rfl⟩, rfl⟩)
    exact ⟨m, by rw [hheap _ hji (lt _ _ hm)]; exact hm, hk⟩
  · intro c r k j mk hj
    rw [hq] at hj
    obtain ⟨m, hm, hk⟩ := h.removing c r k j mk hj
    have hji : j ≠ i := by
      rintro rfl
      exact hi (List.mem_map.mpr ⟨(j, mk), List.mem_filterMap.mpr ⟨_, hj, rfl⟩, rfl⟩)
    exact ⟨m, by rw [hheap _ hji (lt _ _ hm)]; exact hm, hk⟩
  · rw [hq]; exact h.called

theorem filterMap_set {α β : Type} (f : α → Option β) [BEq β] (l : List α) (r : Nat) (q q' : α)
    (h : l[r]? = some q) (x : β) :
    ((l.set r q').filterMap f).count x + ([q].filterMap f).count x =
      (l.filterMap f).count x + ([q'].filterMap f).count x := by
  obtain ⟨hlt, he⟩ := List.getElem?_eq_some_iff.mp h
  have h1 : l = l.take r ++ [q] ++ l.drop (r + 1) := by
    rw [← he, List.append_assoc, List.singleton_append, ← List.drop_eq_getElem_cons hlt, List.take_append_drop]
  have h2 : l.set r q' = l.take r ++ [q'] ++ l.drop (r + 1) := by
    rw [List.set_eq_take_append_cons_drop, if_pos hlt]; simp
  rw [h2]
  conv => rhs; rw [h1]
  simp only [List.filterMap_append, List.count_append]
  omega

/-- Steps inside the request manager hand messages on: none gets lost and none is doubled. -/
theorem thread_counts {g g' : Req.G Rep} {b : Bool} {pc : Req.PC Rep} {pcs : List (Req.PC Rep)}
    (h : Req.act g b pc = some (g', pcs)) (x : Nat × Mark) :
    (gives g b pc).1.count x + (pcs.filterMap carries).count x + (g'.reqs.filterMap waits).count x +
      ((gives g b pc).2.map Prod.snd).count x =
    ([pc].filterMap carries).count x + (g.reqs.filterMap waits).count x := by
  cases pc with
  | creating id =>
    simp only [Req.act, Option.some.injEq, Prod.mk.injEq] at h
    obtain ⟨rfl, rfl⟩ := h
    simp [gives, carries, Req.G.ev, waits, List.filterMap_cons]
  | looking call k rep =>
    simp only [Req.act] at h
    cases rep <;> split at h <;> rename_i hp <;>
      (simp only [Option.some.injEq, Prod.mk.injEq] at h; obtain ⟨rfl, rfl⟩ := h) <;>
      simp [gives, hp, carries, Req.G.ev, List.filterMap_cons]
  | removing call r k rep =>
    simp only [Req.act, Option.some.injEq, Prod.mk.injEq] at h
    obtain ⟨rfl, rfl⟩ := h
    cases rep <;> simp [gives, carries, Req.G.deregister, List.filterMap_cons]
  | sending call r rep =>
    simp only [Req.act] at h
    split at h
    · cases h
    · rename_i q hq
      split at h
      · cases h
      · rename_i hc
        simp only [Option.some.injEq, Prod.mk.injEq] at h
        obtain ⟨rfl, rfl⟩ := h
        have := filterMap_set waits g.reqs r q { q with chan := some rep } hq x
        cases rep <;> simp [gives, carries, Req.G.ev, List.filterMap_cons, waits, hc] at this ⊢ <;> omega
  | awaiting r =>
    simp only [Req.act] at h
    split at h
    · rename_i hb
      simp only [Option.some.injEq, Prod.mk.injEq] at h
      obtain ⟨rfl, rfl⟩ := h
      simp [gives, hb, carries, List.filterMap_cons]
    · rename_i hb
      split at h
      · cases h
      · rename_i q hq
        split at h
        · cases h
        · rename_i rep hc
          simp only [Option.some.injEq, Prod.mk.injEq] at h
          obtain ⟨rfl, rfl⟩ := h
          have := filterMap_set waits g.reqs r q { q with chan := none } hq x
          obtain ⟨qi, qc⟩ := q
          simp only at hc
          subst hc
          cases rep <;> simp [gives, hb, hq, carries, Req.G.ev, List.filterMap_cons, waits] at this ⊢ <;> omega
  | forgetting r =>
    simp only [Req.act] at h
    split at h
    · cases h
    · rename_i q hq
      simp only [Option.some.injEq, Prod.mk.injEq] at h
      obtain ⟨rfl, rfl⟩ := h
      simp [gives, carries, Req.G.ev, Req.G.deregister, List.filterMap_cons]

/-- A step of the request manager that neither gives nor takes messages but for what is said. -/
theorem Inv.request {size : Nat} {s s' : State} {l : Req.Label Rep} (h : Inv size s) (hs : Req.Step s.req l s'.req)
    (hp : s'.pool = s.pool) (huse : (inUse s').Perm (inUse s))
    (hcall : ∀ k i mk, l = .call k (.msg i mk) → ∃ m, s.pool.heap[i]? = some m ∧ m.ident = k ∧ Right size m mk) :
    Inv size s' := by
  obtain ⟨sr, sp, srd, srp, scl⟩ := s
  obtain ⟨sr', sp', srd', srp', scl'⟩ := s'
  simp only at hs hp hcall
  subst hp
  refine ⟨.step _ _ _ h.req trivial hs, ?_, fun x hx => h.right x (huse.mem_iff.mp hx), ?_, ?_, ?_⟩
  · obtain ⟨held, hh, hpm⟩ := h.hist
    exact ⟨held, hh, hpm.trans (huse.map _).symm⟩
  · intro c k i mk hm
    have hl := h.looking c k i mk
    cases hs with
    | thread g g' pre post pcs pc b hact =>
      simp only [List.mem_append, List.mem_cons] at hm hl
      rcases hm with hm | hm | hm
      · exact hl (.inl hm)
      · have ha := Req.acts_of_act hact
        cases ha <;> simp at hm
      · exact hl (.inr (.inr hm))
    | create g ts => exact hl (by simpa using hm)
    | call g ts k' rep =>
      simp only [List.mem_cons] at hm
      rcases hm with hm | hm
      · cases hm
        obtain ⟨m, h1, h2, -⟩ := hcall k i mk rfl
        exact ⟨m, h1, h2⟩
      · exact hl hm
    | await g ts r hr => exact hl (by simpa using hm)
  · intro c r k i mk hm
    have hl := h.removing c r k i mk
    have hk := h.looking c k i mk
    cases hs with
    | thread g g' pre post pcs pc b hact =>
      simp only [List.mem_append, List.mem_cons] at hm hl hk
      rcases hm with hm | hm | hm
      · exact hl (.inl hm)
      · have ha := Req.acts_of_act hact
        cases ha <;> simp at hm
        obtain ⟨rfl, rfl, rfl, rfl⟩ := hm
        exact hk (.inr (.inl rfl))
      · exact hl (.inr (.inr hm))
    | create g ts => exact hl (by simpa using hm)
    | call g ts k' rep => exact hl (by simpa using hm)
    | await g ts r' hr => exact hl (by simpa using hm)
  · intro c k i mk hm
    have hl := h.called c k i mk
    cases hs with
    | thread g g' pre post pcs pc b hact =>
      have ha := Req.acts_of_act hact
      cases ha <;> exact hl (by simpa [Req.G.ev, Req.G.deregister] using hm)
    | create g ts => exact hl (by simpa [Req.G.ev] using hm)
    | call g ts k' rep =>
      simp only [Req.G.ev, List.mem_append, List.mem_singleton] at hm
      rcases hm with hm | hm
      · exact hl hm
      · cases hm
        obtain ⟨m, -, h2, h3⟩ := hcall k i mk rfl
        exact ⟨m, h3, h2⟩
    | await g ts r hr => exact hl hm

theorem inUse_erase_reading {s : State} {x : Nat × Mark} (hx : x ∈ s.reading) (q : Req.State Rep) (p : Pool)
    (hq : q = s.req) :
    (inUse s).Perm (x :: inUse { s with req := q, pool := p, reading := s.reading.erase x }) := by
  subst hq
  simp only [inUse, List.append_assoc]
  rw [← List.cons_append]
  exact (List.perm_cons_erase hx).append_right _

theorem Inv.step {size : Nat} {s s' : State} {l : Label} (h : Inv size s) (hok : CloseOnce s l) (hs : Step s l s') :
    Inv size s' := by
  have hnd := h.nodup
  cases hs with
  | thread q pc b hst =>
    refine Inv.request h (s' := { s with
        req := q,
        reading := (gives s.req.g b pc).1 ++ s.reading,
        replies := (gives s.req.g b pc).2 ++ s.replies }) hst rfl ?_ (by intro k i mk he; cases he)
    rw [List.perm_iff_count]
    intro x
    obtain ⟨sr, sp, srd, srp, scl⟩ := s
    cases hst with
    | thread g g' pre post pcs pc b hact =>
      have := thread_counts hact x
      simp only [inUse, List.filterMap_append, List.count_append, List.map_append, List.filterMap_cons,
        List.filterMap_nil] at this ⊢
      cases hc : carries pc <;> simp [hc, List.count_cons] at this ⊢ <;> omega
  | create q hst =>
    refine Inv.request h (s' := { s with req := q }) hst rfl ?_ (by intro k i mk he; cases he)
    obtain ⟨sr, sp, srd, srp, scl⟩ := s
    cases hst
    simp [inUse, carries, Req.G.ev, List.filterMap_cons]
  | await q r hst =>
    refine Inv.request h (s' := { s with req := q }) hst rfl ?_ (by intro k i mk he; cases he)
    obtain ⟨sr, sp, srd, srp, scl⟩ := s
    cases hst
    simp [inUse, carries, List.filterMap_cons]
  | fail q k e hst =>
    refine Inv.request h (s' := { s with req := q }) hst rfl ?_ (by intro k i mk he; cases he)
    obtain ⟨sr, sp, srd, srp, scl⟩ := s
    cases hst
    simp [inUse, carries, Req.G.ev, List.filterMap_cons]
  | fulfill q i mk m hi hm hst =>
    have hr := h.right (i, mk) (by simp [inUse, hi])
    refine Inv.request h (s' := { s with req := q, reading := s.reading.erase (i, mk) }) hst rfl ?_ ?_
    · have hp := inUse_erase_reading hi s.req s.pool rfl
      obtain ⟨sr, sp, srd, srp, scl⟩ := s
      cases hst
      refine List.Perm.trans ?_ hp.symm
      simp only [inUse, carries, Req.G.ev, List.filterMap_cons, List.append_assoc, List.cons_append]
      exact List.perm_middle
    · intro k j mk' he
      cases he
      obtain ⟨m', hm', hr'⟩ := hr
      rw [hm] at hm'; cases hm'
      exact ⟨m, hm, rfl, hr'⟩
  | getNew =>
    obtain ⟨held, hh, hp⟩ := h.hist
    have hfree : s.pool.heap.length ∉ (inUse s).map Prod.fst := by
      intro hc
      obtain ⟨x, hx, he⟩ := List.mem_map.mp hc
      obtain ⟨m, hm, -⟩ := h.right x hx
      have := (List.getElem?_eq_some_iff.mp hm).1
      omega
    refine h.pool (s' := { s with pool := s.pool.getNew.1, reading := (s.pool.getNew.2, .fresh) :: s.reading }) rfl
      s.pool.heap.length ?_ ?_ ⟨_, .getNew hh, ?_⟩ ?_ ?_
    · intro j hj hlt
      simp only [Pool.getNew]
      rw [List.getElem?_append_left hlt]
    · intro hc
      apply hfree
      simp only [inUse, List.map_append, List.mem_append]
      exact .inl (.inl (.inr hc))
    · simp only [inUse, List.cons_append, List.map_cons]
      exact hp.cons _
    · intro x hx hxi
      simp only [inUse, List.cons_append, List.mem_cons] at hx
      rcases hx with rfl | hx
      · obtain ⟨⟨m, h1, h2, h3⟩, -⟩ := C15_get_is_clean size s.pool held hh
        exact ⟨m, h1, h2, h3⟩
      · exact absurd (List.mem_map.mpr ⟨x, hx, hxi⟩) hfree
    · intro x hx hxi
      simp only [inUse, List.cons_append, List.mem_cons] at hx
      rcases hx with rfl | hx
      · exact absurd rfl hxi
      · exact hx
  | getFree i hi =>
    obtain ⟨held, hh, hp⟩ := h.hist
    have hfree : i ∉ (inUse s).map Prod.fst := by
      intro hc
      exact (C16_never_handed_out_twice size s.pool held hh).2.2 i hi (hp.mem_iff.mpr hc)
    refine h.pool (s' := { s with pool := s.pool.getFree i, reading := (i, .fresh) :: s.reading }) rfl
      i (fun j _ _ => rfl) ?_ ⟨_, .getFree hh hi, ?_⟩ ?_ ?_
    · intro hc
      apply hfree
      simp only [inUse, List.map_append, List.mem_append]
      exact .inl (.inl (.inr hc))
    · simp only [inUse, List.cons_append, List.map_cons]
      exact hp.cons _
    · intro x hx hxi
      simp only [inUse, List.cons_append, List.mem_cons] at hx
      rcases hx with rfl | hx
      · obtain ⟨m, h1, h2, h3⟩ := (C15_get_is_clean size s.pool held hh).2 i hi
        exact ⟨m, h1, h2, h3⟩
      · exact absurd (List.mem_map.mpr ⟨x, hx, hxi⟩) hfree
    · intro x hx hxi
      simp only [inUse, List.cons_append, List.mem_cons] at hx
      rcases hx with rfl | hx
      · exact absurd rfl hxi
      · exact hx
  | gc i hi =>
    obtain ⟨held, hh, hp⟩ := h.hist
    have hfree : i ∉ (inUse s).map Prod.fst := by
      intro hc
      exact (C16_never_handed_out_twice size s.pool held hh).2.2 i hi (hp.mem_iff.mpr hc)
    refine h.pool (s' := { s with pool := s.pool.dropFree i }) rfl i (fun j _ _ => rfl) ?_ ⟨_, .gc hh hi, hp⟩ ?_ ?_
    · intro hc
      apply hfree
      simp only [inUse, List.map_append, List.mem_append]
      exact .inl (.inl (.inr hc))
    · intro x hx hxi
      exact absurd (List.mem_map.mpr ⟨x, hx, hxi⟩) hfree
    · exact fun x hx _ => hx
  | read i mk bs p tp e hi hr =>
    obtain ⟨held, hh, hp⟩ := h.hist
    have hper := inUse_erase_reading hi s.req s.pool rfl
    have hnd' := ((hper.map Prod.fst).nodup_iff.mp hnd)
    rw [List.map_cons, List.nodup_cons] at hnd'
    have hfree := hnd'.1
    have hheld : i ∈ held := hp.mem_iff.mpr ((hper.map Prod.fst).mem_iff.mpr (by simp))
    obtain ⟨m, hm, hmr⟩ := h.right (i, mk) (by simp [inUse, hi])
    have hlt := (List.getElem?_eq_some_iff.mp hm).1
    have hread := History.readBytes hh hheld hr
    have hr0 := hr
    unfold Pool.readBytes at hr
    rw [hm] at hr
    dsimp only at hr
    obtain ⟨m1, hb, hpe⟩ : ∃ m1, m.readBytes bs = .ok (m1, tp, e) ∧ p = { s.pool with heap := s.pool.heap.set i m1 } := by
      cases hb : m.readBytes bs with
      | error x => rw [hb] at hr; simp [bind, Except.bind] at hr
      | ok x =>
        obtain ⟨m1, tp1, e1⟩ := x
        rw [hb] at hr
        simp only [bind, Except.bind, pure, Except.pure, Except.ok.injEq, Prod.mk.injEq] at hr
        exact ⟨m1, by rw [hr.2.1, hr.2.2], hr.1.symm⟩
    refine h.pool (s' := { s with pool := p, reading := (i, mk.read bs tp e) :: s.reading.erase (i, mk) }) rfl
      i ?_ ?_ ⟨held, hread, ?_⟩ ?_ ?_
    · intro j hj hlt
      rw [hpe]
      exact List.getElem?_set_ne (Ne.symm hj)
    · intro hc
      apply hfree
      simp only [inUse, List.map_append, List.mem_append]
      exact .inl (.inl (.inr hc))
    · refine hp.trans ((hper.map Prod.fst).trans ?_)
      simp [inUse]
    · intro x hx hxi
      simp only [inUse, List.cons_append, List.mem_cons] at hx
      rcases hx with rfl | hx
      · refine ⟨m1, by rw [hpe]; exact List.getElem?_set_self hlt, ?_⟩
        simp only [Mark.read]
        split
        · rename_i hc
          obtain ⟨rfl, rfl, rfl⟩ := hc
          exact ⟨m, hmr.1, hmr.2, hb⟩
        · trivial
      · exact absurd (List.mem_map.mpr ⟨x, hx, hxi⟩) hfree
    · intro x hx hxi
      simp only [inUse, List.cons_append, List.mem_cons] at hx
      rcases hx with rfl | hx
      · exact absurd rfl hxi
      · exact hper.mem_iff.mpr (List.mem_cons_of_mem _ hx)
  | close i mk hi =>
    obtain ⟨held, hh, hp⟩ := h.hist
    have hper := inUse_erase_reading hi s.req s.pool rfl
    have hnd' := ((hper.map Prod.fst).nodup_iff.mp hnd)
    rw [List.map_cons, List.nodup_cons] at hnd'
    have hfree := hnd'.1
    have hheld : i ∈ held := hp.mem_iff.mpr ((hper.map Prod.fst).mem_iff.mpr (by simp))
    refine h.pool (s' := { s with pool := s.pool.close i, reading := s.reading.erase (i, mk) }) rfl
      i ?_ ?_ ⟨_, .close hh hheld, ?_⟩ ?_ ?_
    · intro j hj hlt
      unfold Pool.close
      split
      · rfl
      · exact List.getElem?_set_ne (Ne.symm hj)
    · intro hc
      apply hfree
      simp only [inUse, List.map_append, List.mem_append]
      exact .inl (.inl (.inr hc))
    · have := (hp.trans (hper.map Prod.fst)).erase i
      rwa [List.map_cons, List.erase_cons_head] at this
    · intro x hx hxi
      exact absurd (List.mem_map.mpr ⟨x, hx, hxi⟩) hfree
    · exact fun x hx _ => hper.mem_iff.mpr (List.mem_cons_of_mem _ hx)
  | closeReply r i mk hi =>
    obtain ⟨held, hh, hp⟩ := h.hist
    have hper : (inUse s).Perm ((i, mk) :: inUse { s with replies := s.replies.erase (r, i, mk) }) := by
      simp only [inUse]
      refine ((((List.perm_cons_erase hi).map Prod.snd).append_left _).trans ?_)
      rw [List.map_cons]
      exact List.perm_middle
    have hnd' := ((hper.map Prod.fst).nodup_iff.mp hnd)
    rw [List.map_cons, List.nodup_cons] at hnd'
    have hfree := hnd'.1
    have hheld : i ∈ held := hp.mem_iff.mpr ((hper.map Prod.fst).mem_iff.mpr (by simp))
    refine h.pool (s' := { s with
        pool := replyClose s.pool i, replies := s.replies.erase (r, i, mk), closed := (r, i) :: s.closed }) rfl
      i ?_ ?_ ⟨_, .close hh hheld, ?_⟩ ?_ ?_
    · intro j hj hlt
      simp only [replyClose]
      unfold Pool.close
      split
      · rfl
      · exact List.getElem?_set_ne (Ne.symm hj)
    · intro hc
      apply hfree
      simp only [inUse, List.map_append, List.mem_append]
      exact .inl (.inl (.inr hc))
    · have := (hp.trans (hper.map Prod.fst)).erase i
      rwa [List.map_cons, List.erase_cons_head] at this
    · intro x hx hxi
      exact absurd (List.mem_map.mpr ⟨x, hx, hxi⟩) hfree
    · exact fun x hx _ => hper.mem_iff.mpr (List.mem_cons_of_mem _ hx)
  | closeAgain r i hi =>
    obtain ⟨held, hh, hp⟩ := h.hist
    have hfree : i ∉ (inUse s).map Prod.fst := by
      intro hc
      obtain ⟨x, hx, he⟩ := List.mem_map.mp hc
      exact hok x.2 (by rw [← he]; exact hx)
    refine h.pool (s' := { s with pool := replyClose s.pool i }) rfl
      i ?_ ?_ ⟨_, .closeAgain hh (fun hc => hfree (hp.mem_iff.mp hc)), hp⟩ ?_ ?_
    · intro j hj hlt
      simp only [replyClose]
      unfold Pool.close
      split
      · rfl
      · exact List.getElem?_set_ne (Ne.symm hj)
    · intro hc
      apply hfree
      simp only [inUse, List.map_append, List.mem_append]
      exact .inl (.inl (.inr hc))
    · intro x hx hxi
      exact absurd (List.mem_map.mpr ⟨x, hx, hxi⟩) hfree
    · exact fun x hx _ => hx

theorem ReachableIf.inv {size : Nat} {s : State} (h : ReachableIf size CloseOnce s) : Inv size s := by
  induction h with
  | start =>
    exact ⟨.start, ⟨[], .start, by simp [inUse]⟩, by simp [inUse], by simp, by simp, by simp⟩
  | step s l s' _ hok hs ih => exact ih.step hok hs

end Webwire.Replies
