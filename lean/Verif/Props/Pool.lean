import Verif.Model.Pool
import Verif.Props.Stream
import Verif.Proofs.Grammar
import Verif.Proofs.NoPanic

/-!
# Properties C15, C16: the message pool
-/

set_option autoImplicit false

namespace Webwire
namespace Spec

/-- Histories of pool use in which every holder stops using a message once it has closed it. The list holds
the objects obtained by `Get` and not yet closed by their holder, with repetitions. A holder may read into its
message any number of times, may close it without having read anything, and anybody may close a message again
that nobody holds. -/
inductive History (size : Nat) : Pool → List Nat → Prop
  | start : History size (newSyncPool size) []
  | getNew {p held} : History size p held → History size p.getNew.1 (p.getNew.2 :: held)
  | getFree {p held i} : History size p held → i ∈ p.free → History size (p.getFree i) (i :: held)
  | gc {p held i} : History size p held → i ∈ p.free → History size (p.dropFree i) held
  | readBytes {p held i bs p' tp e} : History size p held → i ∈ held → p.readBytes i bs = .ok (p', tp, e) →
      History size p' held
  | read {p held i r p' tp e r'} : History size p held → i ∈ held → Fits size 0 (r.map Prod.fst) → p.read i r = .ok (p', tp, e, r') →
      History size p' held
  | close {p held i} : History size p held → i ∈ held → History size (p.close i) (held.erase i)
  | closeAgain {p held i} : History size p held → i ∉ held → History size (p.close i) held

end Spec
open Spec

theorem bufferRead_size (r : List Answer) :
    ∀ (m m' : Msg) (c : Nat) (e : Option Err) (r' : List Answer),
      m.bufferRead c r = .ok (m', e, r') → m'.buf.length = m.buf.length := by
  have sl : ∀ (b : Bytes) (k : Nat) (x : Bytes), (storeAt b k x).length = b.length := by
    intro b k x
    simp [storeAt, goCopy]; omega
  induction r with
  | nil => intro m m' c e r' h; simp [Msg.bufferRead, goBlock] at h
  | cons a rest ih =>
    intro m m' c e r' h
    obtain ⟨bytes, err⟩ := a
    unfold Msg.bufferRead at h
    split at h
    · dsimp only at h
      split at h
      · cases hd : drain rest with
        | error x => rw [hd] at h; simp [bind, Except.bind] at h
        | ok x =>
          rw [hd] at h
          simp only [bind, Except.bind, pure, Except.pure, Except.ok.injEq, Prod.mk.injEq] at h
          rw [← h.1]; simp [Msg.bufferClose, sl]
      · simp only [Except.ok.injEq, Prod.mk.injEq] at h
        rw [← h.1]; simp [sl]
    · dsimp only at h
      split at h
      · simp only [Except.ok.injEq, Prod.mk.injEq] at h
        rw [← h.1]; simp [sl]
      · simp only [Except.ok.injEq, Prod.mk.injEq] at h
        rw [← h.1]; simp [Msg.bufferClose, sl]
      · have := ih _ _ _ _ _ h
        rw [this]; simp [sl]

theorem parse_buf (m m' : Msg) (tp : Bool) (e : Option Err) (h : m.parse = .ok (m', tp, e))
    (hl : m.len ≤ m.buf.length) : m'.buf = m.buf := by
  obtain ⟨a, b, c, h1, h2, -⟩ := parse_returns m hl
  rw [h1] at h
  simp only [Except.ok.injEq, Prod.mk.injEq] at h
  rw [← h.1]; exact h2

theorem bufferRead_len (r : List Answer) :
    ∀ (m m' : Msg) (c : Nat) (e : Option Err) (r' : List Answer), c ≤ m.buf.length →
      Fits m.buf.length c (r.map Prod.fst) →
      m.bufferRead c r = .ok (m', e, r') → m'.len ≤ m.buf.length := by
  have sl : ∀ (b : Bytes) (k : Nat) (x : Bytes), (storeAt b k x).length = b.length := by
    intro b k x
    simp [storeAt, goCopy]; omega
  induction r with
  | nil => intro m m' c e r' _ _ h; simp [Msg.bufferRead, goBlock] at h
  | cons a rest ih =>
    intro m m' c e r' hc hf h
    obtain ⟨bytes, err⟩ := a
    simp only [List.map_cons, Fits] at hf
    unfold Msg.bufferRead at h
    by_cases hfull : c ≥ m.buf.length
    · rw [if_pos hfull] at h
      dsimp only at h
      split at h
      · cases hd : drain rest with
        | error x => rw [hd] at h; simp [bind, Except.bind] at h
        | ok x =>
          rw [hd] at h
          simp only [bind, Except.bind, pure, Except.pure, Except.ok.injEq, Prod.mk.injEq] at h
          rw [← h.1]; simp [Msg.bufferClose]
      · simp only [Except.ok.injEq, Prod.mk.injEq] at h
        rw [← h.1]; exact hc
    · rw [if_neg hfull] at h hf
      dsimp only at h
      split at h
      · simp only [Except.ok.injEq, Prod.mk.injEq] at h
        rw [← h.1]; show c + bytes.length ≤ _; omega
      · simp only [Except.ok.injEq, Prod.mk.injEq] at h
        rw [← h.1]; simp [Msg.bufferClose]
      · have := ih _ _ _ _ _ (by simp only [sl]; omega) (by simp only [sl]; exact hf.2) h
        simpa [sl] using this

theorem readBytes_size (m m' : Msg) (bs : Bytes) (tp : Bool) (e : Option Err)
    (h : m.readBytes bs = .ok (m', tp, e)) : m'.buf.length = m.buf.length := by
  by_cases h1 : bs = []
  · subst h1
    simp only [Msg.readBytes, List.length_nil, Nat.zero_lt_one, if_true, Except.ok.injEq, Prod.mk.injEq] at h
    rw [← h.1]
  by_cases h2 : bs.length ≤ m.buf.length
  · rw [readBytes_eq h1 h2] at h
    have := parse_buf _ _ _ _ h (by simp [goCopy_le _ _ h2])
    rw [this]
    simp [goCopy]; omega
  · unfold Msg.readBytes at h
    have : 0 < bs.length := List.length_pos_iff.mpr h1
    rw [if_neg (by omega), if_pos (by omega)] at h
    simp only [Except.ok.injEq, Prod.mk.injEq] at h
    rw [← h.1]

theorem read_size (m m' : Msg) (r r' : List Answer) (tp : Bool) (e : Option Err)
    (hf : Fits m.buf.length 0 (r.map Prod.fst))
    (h : m.read r = .ok (m', tp, e, r')) : m'.buf.length = m.buf.length := by
  unfold Msg.read at h
  cases hb : m.bufferRead 0 r with
  | error x => rw [hb] at h; simp [bind, Except.bind] at h
  | ok x =>
    obtain ⟨m1, e1, r1⟩ := x
    rw [hb] at h
    have hs := bufferRead_size r _ _ _ _ _ hb
    have hl := bufferRead_len r _ _ _ _ _ (by omega) hf hb
    cases e1 with
    | some e1 =>
      simp only [bind, Except.bind, pure, Except.pure, Except.ok.injEq, Prod.mk.injEq] at h
      rw [← h.1]; exact hs
    | none =>
      simp only [bind, Except.bind] at h
      cases hp : m1.parse with
      | error x => rw [hp] at h; simp at h
      | ok x =>
        obtain ⟨m2, tp2, e2⟩ := x
        rw [hp] at h
        simp only [pure, Except.pure, Except.ok.injEq, Prod.mk.injEq] at h
        rw [← h.1, parse_buf _ _ _ _ hp (by omega)]; exact hs

theorem close_cases (m : Msg) :
    (m.len = 0 ∧ m.close = (m, false)) ∨
    (m.len ≠ 0 ∧ ∃ m', m.close = (m', true) ∧ Clean m' ∧ m'.buf = m.buf) := by
  unfold Msg.close Msg.isEmpty
  by_cases h : m.len = 0
  · left; simp [h]
  · right
    rw [if_neg (by simp; omega)]
    exact ⟨h, _, rfl, ⟨rfl, rfl, rfl, rfl, rfl, rfl⟩, rfl⟩

/-- Invariant of disciplined histories. -/
structure PoolInv (size : Nat) (p : Pool) (held : List Nat) : Prop where
  psize : p.size = size
  free_nodup : p.free.Nodup
  held_nodup : held.Nodup
  disjoint : ∀ i ∈ p.free, i ∉ held
  free_lt : ∀ i ∈ p.free, i < p.heap.length
  held_lt : ∀ i ∈ held, i < p.heap.length
  buf : ∀ (i : Nat) (m : Msg), p.heap[i]? = some m → m.buf.length = size
  closed : ∀ (i : Nat) (m : Msg), p.heap[i]? = some m → i ∉ held → m.len = 0
  clean : ∀ (i : Nat) (m : Msg), p.heap[i]? = some m → i ∈ p.free → Clean m

theorem PoolInv.modify {size : Nat} {p : Pool} {held : List Nat} (h : PoolInv size p held) {i : Nat}
    (hi : i ∈ held) (m' : Msg) (hm : m'.buf.length = size) :
    PoolInv size { p with heap := p.heap.set i m' } held where
  psize := h.psize
  free_nodup := h.free_nodup
  held_nodup := h.held_nodup
  disjoint := h.disjoint
  free_lt := by simpa using h.free_lt
  held_lt := by simpa using h.held_lt
  buf := by
    intro j m hj
    by_cases hij : i = j
    · subst hij
      simp only [List.getElem?_set_self (h.held_lt i hi), Option.some.injEq] at hj
      rw [← hj]; exact hm
    · rw [List.getElem?_set_ne hij] at hj; exact h.buf j m hj
  closed := by
    intro j m hj hh
    have hij : i ≠ j := by rintro rfl; exact hh hi
    rw [List.getElem?_set_ne hij] at hj; exact h.closed j m hj hh
  clean := by
    intro j m hj hh
    have hij : i ≠ j := by rintro rfl; exact h.disjoint i hh hi
    rw [List.getElem?_set_ne hij] at hj; exact h.clean j m hj hh

theorem history_inv {size : Nat} {p : Pool} {held : List Nat} (h : History size p held) :
    PoolInv size p held := by
  induction h with
  | start => exact ⟨rfl, List.nodup_nil, List.nodup_nil, by simp [newSyncPool], by simp [newSyncPool], by simp,
      by simp [newSyncPool], by simp [newSyncPool], by simp [newSyncPool]⟩
  | @getNew p held _ ih =>
    have hn : p.heap.length ∉ held := fun hc => Nat.lt_irrefl _ (ih.held_lt _ hc)
    have hf : p.heap.length ∉ p.free := fun hc => Nat.lt_irrefl _ (ih.free_lt _ hc)
    have hget : ∀ (i : Nat) (m : Msg), (p.heap ++ [newMessage p.size])[i]? = some m →
        p.heap[i]? = some m ∨ (i = p.heap.length ∧ m = newMessage p.size) := by
      intro i m hi
      by_cases hlt : i < p.heap.length
      · rw [List.getElem?_append_left hlt] at hi; exact .inl hi
      · rw [List.getElem?_append_right (by omega)] at hi
        have : i = p.heap.length := by
          have := (List.getElem?_eq_some_iff.mp hi).1
          simp at this; omega
        subst this
        simp at hi
        exact .inr ⟨rfl, hi.symm⟩
    refine ⟨ih.psize, ih.free_nodup, List.nodup_cons.mpr ⟨hn, ih.held_nodup⟩, ?_, ?_, ?_, ?_, ?_, ?_⟩
    · intro i hi hc
      rcases List.mem_cons.mp hc with rfl | hc
      · exact hf hi
      · exact ih.disjoint i hi hc
    · intro i hi
      have := ih.free_lt i hi
      simp [Pool.getNew]; omega
    · intro i hi
      rcases List.mem_cons.mp hi with rfl | hi
      · simp [Pool.getNew]
      · have := ih.held_lt i hi
        simp [Pool.getNew]; omega
    · intro i m hi
      rcases hget i m hi with hi | ⟨-, rfl⟩
      · exact ih.buf i m hi
      · simp [newMessage, ih.psize]
    · intro i m hi hh
      rcases hget i m hi with hi | ⟨-, rfl⟩
      · exact ih.closed i m hi (fun hc => hh (List.mem_cons_of_mem _ hc))
      · rfl
    · intro i m hi hh
      rcases hget i m hi with hi | ⟨rfl, -⟩
      · exact ih.clean i m hi hh
      · exact absurd hh hf
  | @getFree p held i _ hi ih =>
    refine ⟨ih.psize, ih.free_nodup.erase i, List.nodup_cons.mpr ⟨ih.disjoint i hi, ih.held_nodup⟩, ?_, ?_, ?_,
      ih.buf, ?_, ?_⟩
    · intro j hj hc
      have hj' := (ih.free_nodup.mem_erase_iff).mp hj
      rcases List.mem_cons.mp hc with rfl | hc
      · exact hj'.1 rfl
      · exact ih.disjoint j hj'.2 hc
    · intro j hj; exact ih.free_lt j (List.mem_of_mem_erase hj)
    · intro j hj
      rcases List.mem_cons.mp hj with rfl | hj
      · exact ih.free_lt _ hi
      · exact ih.held_lt j hj
    · intro j m hj hh; exact ih.closed j m hj (fun hc => hh (List.mem_cons_of_mem _ hc))
    · intro j m hj hh; exact ih.clean j m hj (List.mem_of_mem_erase hh)
  | @gc p held i _ hi ih =>
    exact ⟨ih.psize, ih.free_nodup.erase i, ih.held_nodup,
      fun j hj => ih.disjoint j (List.mem_of_mem_erase hj),
      fun j hj => ih.free_lt j (List.mem_of_mem_erase hj), ih.held_lt, ih.buf, ih.closed,
      fun j m hj hh => ih.clean j m hj (List.mem_of_mem_erase hh)⟩
  | @readBytes p held i bs p' tp e _ hi hr ih =>
    unfold Pool.readBytes at hr
    split at hr
    · simp [goPanic] at hr
    next m hm =>
      cases hb : m.readBytes bs with
      | error x => rw [hb] at hr; simp [bind, Except.bind] at hr
      | ok x =>
        obtain ⟨m1, tp1, e1⟩ := x
        rw [hb] at hr
        simp only [bind, Except.bind, pure, Except.pure, Except.ok.injEq, Prod.mk.injEq] at hr
        rw [← hr.1]
        exact ih.modify hi m1 (by rw [readBytes_size _ _ _ _ _ hb]; exact ih.buf i m hm)
  | @read p held i r p' tp e r' _ hi hf hr ih =>
    unfold Pool.read at hr
    split at hr
    · simp [goPanic] at hr
    next m hm =>
      cases hb : m.read r with
      | error x => rw [hb] at hr; simp [bind, Except.bind] at hr
      | ok x =>
        obtain ⟨m1, tp1, e1, r1⟩ := x
        rw [hb] at hr
        simp only [bind, Except.bind, pure, Except.pure, Except.ok.injEq, Prod.mk.injEq] at hr
        rw [← hr.1]
        exact ih.modify hi m1 (by
          rw [read_size _ _ _ _ _ _ (by rw [ih.buf i m hm]; exact hf) hb]; exact ih.buf i m hm)
  | @close p held i _ hi ih =>
    have hlt := ih.held_lt i hi
    have hm : p.heap[i]? = some p.heap[i] := List.getElem?_eq_getElem hlt
    have hbuf := ih.buf i _ hm
    have hnf : i ∉ p.free := fun hc => ih.disjoint i hc hi
    have hne : ∀ j, j ∉ held.erase i → j ≠ i → j ∉ held := by
      intro j hj hji hc; exact hj ((ih.held_nodup.mem_erase_iff).mpr ⟨hji, hc⟩)
    unfold Pool.close
    rw [hm]
    rcases close_cases p.heap[i] with ⟨h0, hc⟩ | ⟨-, m', hc, hcl, hb'⟩
    · simp only [hc]
      have : p.heap.set i p.heap[i] = p.heap := List.set_getElem_self hlt
      simp only [this]
      refine ⟨ih.psize, ih.free_nodup, ih.held_nodup.erase i, fun j hj hc => ih.disjoint j hj (List.mem_of_mem_erase hc),
        ih.free_lt, fun j hj => ih.held_lt j (List.mem_of_mem_erase hj), ih.buf, ?_, ih.clean⟩
      intro j m hj hh
      by_cases hji : j = i
      · subst hji; rw [hm] at hj; cases hj; exact h0
      · exact ih.closed j m hj (hne j hh hji)
    · simp only [hc, if_true]
      refine ⟨ih.psize, List.nodup_cons.mpr ⟨hnf, ih.free_nodup⟩, ih.held_nodup.erase i, ?_, ?_, ?_, ?_, ?_, ?_⟩
      · intro j hj hcj
        rcases List.mem_cons.mp hj with rfl | hj
        · exact ((ih.held_nodup.mem_erase_iff).mp hcj).1 rfl
        · exact ih.disjoint j hj (List.mem_of_mem_erase hcj)
      · intro j hj
        rcases List.mem_cons.mp hj with rfl | hj
        · simpa using hlt
        · simpa using ih.free_lt j hj
      · intro j hj; simpa using ih.held_lt j (List.mem_of_mem_erase hj)
      · intro j m hj
        by_cases hij : i = j
        · subst hij
          simp only [List.getElem?_set_self hlt, Option.some.injEq] at hj
          rw [← hj, hb']; exact hbuf
        · rw [List.getElem?_set_ne hij] at hj; exact ih.buf j m hj
      · intro j m hj hh
        by_cases hij : i = j
        · subst hij
          simp only [List.getElem?_set_self hlt, Option.some.injEq] at hj
          rw [← hj]; exact hcl.len
        · rw [List.getElem?_set_ne hij] at hj; exact ih.closed j m hj (hne j hh (fun h => hij h.symm))
      · intro j m hj hh
        by_cases hij : i = j
        · subst hij
          simp only [List.getElem?_set_self hlt, Option.some.injEq] at hj
          rw [← hj]; exact hcl
        · rw [List.getElem?_set_ne hij] at hj
          rcases List.mem_cons.mp hh with rfl | hh
          · exact absurd rfl hij
          · exact ih.clean j m hj hh
  | @closeAgain p held i _ hi ih =>
    unfold Pool.close
    cases hm : p.heap[i]? with
    | none => exact ih
    | some m =>
      have h0 := ih.closed i m hm hi
      have hc : m.close = (m, false) := by
        rcases close_cases m with ⟨-, h⟩ | ⟨h, -⟩
        · exact h
        · exact absurd h0 h
      obtain ⟨hlt, hme⟩ := List.getElem?_eq_some_iff.mp hm
      have : p.heap.set i m = p.heap := by rw [← hme]; exact List.set_getElem_self hlt
      simp only [hc, this]
      exact ih

/-! ## C15 -/

/-- C15: whatever happened before, a message obtained from the pool (new or recycled) shows nothing of an
earlier message. -/
theorem C15_get_is_clean (size : Nat) (p : Pool) (held : List Nat) (h : History size p held) :
    (∃ m, p.getNew.1.heap[p.getNew.2]? = some m ∧ Clean m ∧ m.buf.length = size) ∧
    ∀ i ∈ p.free, ∃ m, (p.getFree i).heap[i]? = some m ∧ Clean m ∧ m.buf.length = size := by
  have ih := history_inv h
  constructor
  · refine ⟨newMessage p.size, ?_, ⟨rfl, rfl, rfl, rfl, rfl, rfl⟩, ?_⟩
    · simp [Pool.getNew]
    · simp [newMessage, ih.psize]
  · intro i hi
    have hlt := ih.free_lt i hi
    have hm : p.heap[i]? = some p.heap[i] := List.getElem?_eq_getElem hlt
    exact ⟨p.heap[i], hm, ih.clean i _ hm hi, ih.buf i _ hm⟩

/-- C15: parsing bytes into a recycled message gives the same outcome as parsing them into a newly allocated
one: same type flag, both or none fail, and on success all visible fields agree. -/
theorem C15_recycled_like_new (size : Nat) (p : Pool) (held : List Nat) (h : History size p held) (i : Nat)
    (hi : i ∈ p.free) (m : Msg) (hm : (p.getFree i).heap[i]? = some m) (bs : Bytes) :
    ∃ m1 tp e1 m2 e2, m.readBytes bs = .ok (m1, tp, e1) ∧ (newMessage size).readBytes bs = .ok (m2, tp, e2) ∧
      (e1 = none ↔ e2 = none) ∧
      (e1 = none → m1.shown = m2.shown ∧ m1.payload.encoding = m2.payload.encoding) := by
  have ih := history_inv h
  have hc : Clean m := ih.clean i m hm hi
  have hs : m.buf.length = size := ih.buf i m hm
  have hn : Clean (newMessage size) := ⟨rfl, rfl, rfl, rfl, rfl, rfl⟩
  have hns : (newMessage size).buf.length = size := by simp [newMessage]
  by_cases h1 : bs = []
  · subst h1
    refine ⟨m, false, none, newMessage size, none, rfl, rfl, Iff.rfl, fun _ => ?_⟩
    constructor
    · simp [Msg.shown, hc.msgType, hc.ident, hc.name, hc.payload, hc.conf, newMessage, Ref.view]
    · simp [hc.payload, newMessage]
  by_cases h2 : bs.length ≤ size
  · obtain ⟨m1, tp1, e1, a1, -, -, a4, a5, a6⟩ := readBytes_clean hc h1 (by omega)
    obtain ⟨m2, tp2, e2, b1, -, -, b4, b5, b6⟩ := readBytes_clean hn h1 (by omega)
    have htp : tp1 = tp2 := by
      rw [Bool.eq_iff_iff, a4, b4]
    subst htp
    refine ⟨m1, tp1, e1, m2, e2, a1, b1, ?_, ?_⟩
    · cases hd : decode bs with
      | none => rw [hd] at a6 b6; simp [a6, b6]
      | some v => rw [hd] at a6 b6; simp [a6.2.1, b6.2.1]
    · intro he
      cases hd : decode bs with
      | none => rw [hd] at a6; exact absurd he a6
      | some v =>
        rw [hd] at a6 b6
        exact ⟨a6.2.2.2.trans b6.2.2.2.symm, ((a5 a6.1).2).trans ((b5 b6.1).2).symm⟩
  · have : 0 < bs.length := List.length_pos_iff.mpr h1
    refine ⟨m, false, some "message buffer overflow", newMessage size, some "message buffer overflow", ?_, ?_,
      Iff.rfl, by simp⟩
    · unfold Msg.readBytes; rw [if_neg (by omega), if_pos (by omega)]
    · unfold Msg.readBytes; rw [if_neg (by omega), if_pos (by omega)]

/-! ## C16 -/

/-- C16: no message object is held by two holders at once, and none is in the pool while it is held. -/
theorem C16_never_handed_out_twice (size : Nat) (p : Pool) (held : List Nat) (h : History size p held) :
    held.Nodup ∧ p.free.Nodup ∧ ∀ i ∈ p.free, i ∉ held :=
  let ih := history_inv h
  ⟨ih.held_nodup, ih.free_nodup, ih.disjoint⟩

/-- C16: closing a message that is already closed changes nothing, and reading it panics. -/
theorem C16_closed_message (size : Nat) (p : Pool) (held : List Nat) (h : History size p held) (i : Nat)
    (hi : i ∉ held) (m : Msg) (hm : p.heap[i]? = some m) :
    p.close i = p ∧ (∃ w, m.Name = .error (.panic w)) ∧ (∃ w, m.Payload = .error (.panic w)) ∧
      (∃ w, m.PayloadEncoding = .error (.panic w)) ∧ (∃ w, m.Identifier = .error (.panic w)) := by
  have h0 := (history_inv h).closed i m hm hi
  have he : m.isEmpty = true := by simp [Msg.isEmpty, h0]
  refine ⟨?_, ?_, ?_, ?_, ?_⟩
  · obtain ⟨hlt, hme⟩ := List.getElem?_eq_some_iff.mp hm
    have hset : p.heap.set i m = p.heap := by rw [← hme]; exact List.set_getElem_self hlt
    have hc : m.close = (m, false) := by
      rcases close_cases m with ⟨-, h⟩ | ⟨h, -⟩
      · exact h
      · exact absurd h0 h
    simp [Pool.close, hm, hc, hset]
  · exact ⟨_, by simp [Msg.Name, he, goPanic]; rfl⟩
  · exact ⟨_, by simp [Msg.Payload, he, goPanic]; rfl⟩
  · exact ⟨_, by simp [Msg.PayloadEncoding, he, goPanic]; rfl⟩
  · exact ⟨_, by simp [Msg.Identifier, he, goPanic]; rfl⟩

/-- C15/C16, non-vacuity: a message is read, closed, handed out again and read again, while a second one is
held. -/
example : ∃ p, History 16 p [0, 1] ∧ ∃ m, p.heap[0]? = some m ∧ m.Name = .ok [99] := by
  have h1 : History 16 _ _ := .getNew (.start (size := 16))
  have h2 : History 16 _ _ := .readBytes (i := 0) (bs := [63, 1, 97, 98]) h1 (by decide) rfl
  have h3 : History 16 _ _ := .getNew h2
  have h4 : History 16 _ _ := .close (i := 0) h3 (by decide)
  have h5 : History 16 _ _ := .getFree (i := 0) h4 (by decide)
  have h6 : History 16 _ _ := .readBytes (i := 0) (bs := [63, 1, 99, 100]) h5 (by decide) rfl
  exact ⟨_, h6, _, rfl, rfl⟩

/-- C16 depends on the discipline: a holder that reads into its message after closing it makes the pool hand
out a message that is not empty. -/
theorem C16_use_after_close : ∃ (p p' : Pool) (tp : Bool) (e : Option Err) (m : Msg),
    History 16 p [] ∧ p.readBytes 0 [63, 1, 97, 98] = .ok (p', tp, e) ∧ 0 ∈ p'.free ∧
      (p'.getFree 0).heap[0]? = some m ∧ ¬ Clean m := by
  have h1 : History 16 _ _ := .getNew (.start (size := 16))
  have h2 : History 16 _ _ := .readBytes (i := 0) (bs := [63, 1, 97, 98]) h1 (by decide) rfl
  have h4 : History 16 _ _ := .close (i := 0) h2 (by decide)
  refine ⟨_, _, _, _, _, h4, rfl, ?_, rfl, ?_⟩
  · decide
  · intro hc; exact absurd hc.len (by decide)

end Webwire
