import Verif.Spec.RequestManager
import Mathlib.Data.List.Basic
import Mathlib.Data.List.Nodup

/-!
# Lemmas on the request manager
-/

set_option autoImplicit false

set_option linter.unusedSimpArgs false

namespace Webwire.Req

variable {R : Type}

/-- All steps of goroutines, case by case. -/
inductive Acts (g : G R) : PC R → G R → List (PC R) → Prop
  | create (id : UInt64) : Acts g (.creating id)
      (({ g with
        reqs := g.reqs ++ [{ ident := le64 id }],
        pending := fun k => if k = le64 id then some g.reqs.length else g.pending k } : G R).ev
          [.created g.reqs.length]) []
  | notFound (call : Nat) (ident : Bytes) (rep : R) : g.pending ident = none →
      Acts g (.looking call ident rep) (g.ev [.returned call false]) []
  | found (call r : Nat) (ident : Bytes) (rep : R) : g.pending ident = some r →
      Acts g (.looking call ident rep) g [.removing call r ident rep]
  | remove (call r : Nat) (ident : Bytes) (rep : R) :
      Acts g (.removing call r ident rep) (g.deregister ident) [.sending call r rep]
  | send (call r : Nat) (rep : R) (q : Request R) : g.reqs[r]? = some q → q.chan = none →
      Acts g (.sending call r rep) (({ g with reqs := g.reqs.set r { q with chan := some rep } } : G R).ev
          [.delivered call r, .returned call true]) []
  | ctxDone (r : Nat) : Acts g (.awaiting r) g [.forgetting r]
  | receive (r : Nat) (rep : R) (q : Request R) : g.reqs[r]? = some q → q.chan = some rep →
      Acts g (.awaiting r) (({ g with reqs := g.reqs.set r { q with chan := none } } : G R).ev [.got r rep]) []
  | forget (r : Nat) (q : Request R) : g.reqs[r]? = some q →
      Acts g (.forgetting r) ((g.deregister q.ident).ev [.gaveUp r]) []

theorem acts_of_act {g g' : G R} {b : Bool} {pc : PC R} {pcs : List (PC R)} (h : act g b pc = some (g', pcs)) :
    Acts g pc g' pcs := by
  cases pc with
  | creating id => simp only [act, Option.some.injEq, Prod.mk.injEq] at h; obtain ⟨rfl, rfl⟩ := h; exact .create id
  | looking call ident rep =>
    simp only [act] at h
    split at h <;> rename_i hp <;>
      (simp only [Option.some.injEq, Prod.mk.injEq] at h; obtain ⟨rfl, rfl⟩ := h)
    · exact .notFound call ident rep hp
    · exact .found call _ ident rep hp
  | removing call r ident rep =>
    simp only [act, Option.some.injEq, Prod.mk.injEq] at h; obtain ⟨rfl, rfl⟩ := h
    exact .remove call r ident rep
  | sending call r rep =>
    simp only [act] at h
    split at h
    · cases h
    · rename_i q hq
      split at h
      · cases h
      · rename_i hc
        simp only [Option.some.injEq, Prod.mk.injEq] at h; obtain ⟨rfl, rfl⟩ := h
        exact .send call r rep q hq hc
  | awaiting r =>
    simp only [act] at h
    split at h
    · simp only [Option.some.injEq, Prod.mk.injEq] at h; obtain ⟨rfl, rfl⟩ := h
      exact .ctxDone r
    · split at h
      · cases h
      · rename_i q hq
        split at h
        · cases h
        · rename_i rep hc
          simp only [Option.some.injEq, Prod.mk.injEq] at h; obtain ⟨rfl, rfl⟩ := h
          exact .receive r rep q hq hc
  | forgetting r =>
    simp only [act] at h
    split at h
    · cases h
    · rename_i q hq
      simp only [Option.some.injEq, Prod.mk.injEq] at h; obtain ⟨rfl, rfl⟩ := h
      exact .forget r q hq

/-! ## Identifiers -/

/-- Identifier of a request being created. -/
def PC.creates : PC R → Option Bytes
  | .creating id => some (le64 id)
  | _ => none

theorem draws_append (l1 l2 : List (Ev R)) : draws (l1 ++ l2) = draws l1 ++ draws l2 := by simp [draws]

structure IdInv (s : State R) : Prop where
  last : s.g.lastID = UInt64.ofNat (draws s.g.log).length
  drawn : draws s.g.log = (List.range (draws s.g.log).length).map fun i => UInt64.ofNat (i + 1)
  keys : ∀ k, (s.g.reqs.map (·.ident)).count k + (s.threads.filterMap PC.creates).count k =
    ((draws s.g.log).map le64).count k

theorem Acts.keys {g g' : G R} {pc : PC R} {pcs : List (PC R)} (h : Acts g pc g' pcs) (k : Bytes) :
    draws g'.log = draws g.log ∧ g'.lastID = g.lastID ∧
    (g'.reqs.map (·.ident)).count k + (pcs.filterMap PC.creates).count k =
      (g.reqs.map (·.ident)).count k + ([pc].filterMap PC.creates).count k := by
  cases h with
  | send call r rep q hq hc =>
    refine ⟨by simp [G.ev, draws], rfl, ?_⟩
    have : (g.reqs.set r { q with chan := some rep }).map (·.ident) = g.reqs.map (·.ident) := by
      rw [List.map_set]
      obtain ⟨hlt, he⟩ := List.getElem?_eq_some_iff.mp hq
      apply List.ext_getElem <;> simp
      intro i h1
      by_cases hir : r = i
      · subst hir; simp [he]
      · simp [hir]
    simp [G.ev, this, PC.creates, List.filterMap_cons]
  | receive r rep q hq hc =>
    refine ⟨by simp [G.ev, draws], rfl, ?_⟩
    have : (g.reqs.set r { q with chan := none }).map (·.ident) = g.reqs.map (·.ident) := by
      rw [List.map_set]
      obtain ⟨hlt, he⟩ := List.getElem?_eq_some_iff.mp hq
      apply List.ext_getElem <;> simp
      intro i h1
      by_cases hir : r = i
      · subst hir; simp [he]
      · simp [hir]
    simp [G.ev, this, PC.creates, List.filterMap_cons]
  | _ => simp [G.ev, G.deregister, draws, PC.creates, List.filterMap_cons]

theorem IdInv.step {s s' : State R} {l : Label R} (hi : IdInv s) (h : Step s l s') : IdInv s' := by
  obtain ⟨h1, h2, h3⟩ := hi
  cases h with
  | thread g g' pre post pcs pc b hact =>
    have ha := acts_of_act hact
    have hd := (ha.keys []).1
    have hl := (ha.keys []).2.1
    simp only at h1 h2 h3
    refine ⟨by rw [hd, hl]; exact h1, by simp only [hd]; exact h2, ?_⟩
    intro k
    have := (ha.keys k).2.2
    have := h3 k
    simp only [hd, List.filterMap_append, List.filterMap_cons, List.count_append] at *
    cases hpc : pc.creates <;> simp [hpc, List.count_cons] at * <;> omega
  | create g ts =>
    simp only at h1 h2 h3
    have hd : draws (g.log ++ [.drew (g.lastID + 1)]) = draws g.log ++ [g.lastID + 1] := by simp [draws]
    have hn : g.lastID + 1 = UInt64.ofNat ((draws g.log).length + 1) := by
      rw [h1, UInt64.ofNat_add]; rfl
    refine ⟨?_, ?_, ?_⟩ <;> simp only [G.ev, hd]
    · simpa using hn
    · rw [List.length_append, List.length_singleton, List.range_succ, List.map_append, ← h2, hn]; rfl
    · intro k
      have := h3 k
      simp [PC.creates, List.filterMap_cons, List.count_cons]
      omega
  | call g ts ident rep =>
    simp only at h1 h2 h3
    have hd : draws (g.log ++ [.called g.calls ident rep]) = draws g.log := by simp [draws]
    refine ⟨?_, ?_, ?_⟩ <;> simp only [G.ev, hd]
    · exact h1
    · exact h2
    · simpa [PC.creates, List.filterMap_cons] using h3
  | await g ts r hr => exact ⟨h1, h2, by simpa [PC.creates, List.filterMap_cons] using h3⟩

theorem ReachableIf.idInv {ok : State R → Label R → Prop} {s : State R} (h : ReachableIf ok s) : IdInv s := by
  induction h with
  | start => constructor <;> simp [draws]
  | step s l s' hr ho hs ih => exact ih.step hs

theorem UInt64.toUInt8_shift (v : UInt64) (i : Nat) (hi : i < 8) :
    ((v >>> UInt64.ofNat (8 * i)).toUInt8).toNat = v.toNat / 2 ^ (8 * i) % 256 := by
  rw [UInt64.toNat_toUInt8, UInt64.toNat_shiftRight, UInt64.toNat_ofNat']
  have h1 : 8 * i % 2 ^ 64 % 64 = 8 * i := by omega
  rw [h1, Nat.shiftRight_eq_div_pow]

theorem le64_injective {a b : UInt64} (h : le64 a = le64 b) : a = b := by
  have e : ∀ v : UInt64, (le64 v).map UInt8.toNat =
      (List.range 8).map fun i => v.toNat / 2 ^ (8 * i) % 256 := by
    intro v
    have h0 : v.toUInt8.toNat = v.toNat % 256 := UInt64.toNat_toUInt8 v
    have := UInt64.toUInt8_shift v
    have e1 := this 1 (by omega)
    have e2 := this 2 (by omega)
    have e3 := this 3 (by omega)
    have e4 := this 4 (by omega)
    have e5 := this 5 (by omega)
    have e6 := this 6 (by omega)
    have e7 := this 7 (by omega)
    simp only [le64, List.map_cons, List.map_nil, h0]
    simp only [Nat.mul_one] at e1
    simp only [show List.range 8 = [0, 1, 2, 3, 4, 5, 6, 7] from rfl, List.map_cons, List.map_nil]
    congr 1
    · simp
    · exact congr (congrArg _ e1) (congr (congrArg _ e2) (congr (congrArg _ e3) (congr (congrArg _ e4)
        (congr (congrArg _ e5) (congr (congrArg _ e6) (congr (congrArg _ e7) rfl))))))
  have h' := congrArg (List.map UInt8.toNat) h
  rw [e, e] at h'
  simp only [show List.range 8 = [0, 1, 2, 3, 4, 5, 6, 7] from rfl, List.map_cons, List.map_nil, List.cons.injEq,
    and_true] at h'
  obtain ⟨a0, a1, a2, a3, a4, a5, a6, a7⟩ := h'
  have ha := a.toNat_lt
  have hb := b.toNat_lt
  apply UInt64.toNat_inj.mp
  simp only [Nat.reduceMul, Nat.reducePow, Nat.div_one] at a0 a1 a2 a3 a4 a5 a6 a7
  omega

/-- With fewer than 2^64 requests all identifiers are different. -/
theorem IdInv.nodup {s : State R} (h : IdInv s) (hn : (draws s.g.log).length < 2 ^ 64) :
    (s.g.reqs.map (·.ident)).Nodup := by
  have hd : ((draws s.g.log).map le64).Nodup := by
    refine List.Nodup.map (fun a b => le64_injective) ?_
    rw [h.drawn]
    refine List.Nodup.map_on ?_ List.nodup_range
    intro x hx y hy hxy
    simp only [List.mem_range] at hx hy
    have := congrArg UInt64.toNat hxy
    rw [UInt64.toNat_ofNat', UInt64.toNat_ofNat', Nat.mod_eq_of_lt (by omega), Nat.mod_eq_of_lt (by omega)] at this
    omega
  rw [List.nodup_iff_count_le_one] at hd ⊢
  intro k
  have := h.keys k
  have := hd k
  omega

/-! ## Requests and replies -/

/-- Events of the call. -/
def Ev.calls (c : Nat) : Ev R → Bool
  | .called c' _ _ => decide (c' = c)
  | _ => false

/-- The call was made, and before the request was done. -/
def Early (log : List (Ev R)) (c r : Nat) : Prop :=
  (∃ e ∈ log, e.calls c = true) ∧
    ∀ l1 x l2, log = l1 ++ x :: l2 → x.closes r = true → ∃ e ∈ l1, e.calls c = true

theorem append_eq_split {α : Type} {log l1 l2 : List α} {e x : α} (h : log ++ [e] = l1 ++ x :: l2) :
    (l1 = log ∧ e = x ∧ l2 = []) ∨ ∃ l3, l2 = l3 ++ [e] ∧ log = l1 ++ x :: l3 := by
  rcases List.eq_nil_or_concat l2 with rfl | ⟨l3, y, rfl⟩
  · left
    have := List.append_inj' h rfl
    simp at this
    exact ⟨this.1.symm, this.2, rfl⟩
  · right
    rw [List.concat_eq_append] at *
    have h' : log ++ [e] = (l1 ++ x :: l3) ++ [y] := by simpa using h
    have := List.append_inj' h' rfl
    simp at this
    refine ⟨l3, ?_, this.1⟩
    rw [this.2]

theorem Early.append1 {log : List (Ev R)} {c r : Nat} (h : Early log c r) (x : Ev R) : Early (log ++ [x]) c r := by
  obtain ⟨⟨e, he, hc⟩, h2⟩ := h
  refine ⟨⟨e, by simp [he], hc⟩, ?_⟩
  intro l1 y l2 hs hy
  rcases append_eq_split hs with ⟨rfl, -, -⟩ | ⟨l3, -, hl3⟩
  · exact ⟨e, he, hc⟩
  · exact h2 l1 y l3 hl3 hy

theorem Early.append {log : List (Ev R)} {c r : Nat} (h : Early log c r) (xs : List (Ev R)) :
    Early (log ++ xs) c r := by
  induction xs generalizing log with
  | nil => simpa using h
  | cons x xs ih =>
    have := ih (h.append1 x)
    simpa using this

/-- The requests known to a goroutine exist. -/
def PC.refs (r : Nat) : PC R → Bool
  | .removing _ r' _ _ | .sending _ r' _ | .awaiting r' | .forgetting r' => decide (r' = r)
  | _ => false

/-- The requests known to an event. -/
def Ev.refs (r : Nat) : Ev R → Bool
  | .created r' | .delivered _ r' | .got r' _ | .gaveUp r' => decide (r' = r)
  | _ => false

structure Inv (s : State R) : Prop where
  pend : ∀ k r, s.g.pending k = some r → ∃ q, s.g.reqs[r]? = some q ∧ q.ident = k ∧ q.chan = none
  pendOpen : ∀ k r, s.g.pending k = some r → ∀ e ∈ s.g.log, e.closes r = false
  pendSend : ∀ k r c rep, s.g.pending k = some r → .sending c r rep ∉ s.threads
  refs : ∀ pc ∈ s.threads, ∀ r, pc.refs r = true → r < s.g.reqs.length
  evRefs : ∀ e ∈ s.g.log, ∀ r, e.refs r = true → r < s.g.reqs.length
  look : ∀ c k rep, .looking c k rep ∈ s.threads → .called c k rep ∈ s.g.log
  rem : ∀ c r k rep, .removing c r k rep ∈ s.threads → .called c k rep ∈ s.g.log ∧
    (∃ q, s.g.reqs[r]? = some q ∧ q.ident = k) ∧ Early s.g.log c r
  send : ∀ c r rep, .sending c r rep ∈ s.threads → ∃ q, s.g.reqs[r]? = some q ∧
    .called c q.ident rep ∈ s.g.log ∧ Early s.g.log c r
  chan : ∀ (r : Nat) q rep, s.g.reqs[r]? = some q → q.chan = some rep →
    ∃ c, .delivered c r ∈ s.g.log ∧ .called c q.ident rep ∈ s.g.log
  got : ∀ r rep, .got r rep ∈ s.g.log → ∃ q c, s.g.reqs[r]? = some q ∧ .delivered c r ∈ s.g.log ∧
    .called c q.ident rep ∈ s.g.log
  delivered : ∀ c r, .delivered c r ∈ s.g.log → ∃ q rep, s.g.reqs[r]? = some q ∧ .called c q.ident rep ∈ s.g.log ∧
    Early s.g.log c r
  returned : ∀ c, .returned c true ∈ s.g.log → ∃ r, .delivered c r ∈ s.g.log

theorem closes_refs {e : Ev R} {r : Nat} (h : e.closes r = true) : e.refs r = true := by
  cases e <;> simp_all [Ev.closes, Ev.refs]

set_option maxHeartbeats 1000000 in
theorem Inv.acts {g g' : G R} {pre post pcs : List (PC R)} {pc : PC R} (hi : Inv ⟨g, pre ++ pc :: post⟩)
    (ha : Acts g pc g' pcs) : Inv ⟨g', pre ++ (pcs ++ post)⟩ := by
  obtain ⟨h1, h2, h3, h4, h5, h6, h7, h8, h9, h10, h11, h12⟩ := hi
  have hE := @Early.append R g.log
  simp only [List.mem_append, List.mem_cons] at *
  cases ha with
  | notFound call ident rep hp =>
    constructor <;> simp only [G.ev, List.mem_append, List.mem_cons, List.nil_append]
    case pend => grind [Ev.closes, PC.refs, Ev.refs]
    case pendOpen => grind [Ev.closes, PC.refs, Ev.refs]
    case pendSend => grind [Ev.closes, PC.refs, Ev.refs]
    case refs => grind [Ev.closes, PC.refs, Ev.refs]
    case evRefs => grind [Ev.closes, PC.refs, Ev.refs]
    case look => grind [Ev.closes, PC.refs, Ev.refs]
    case rem => grind [Ev.closes, PC.refs, Ev.refs]
    case send => grind [Ev.closes, PC.refs, Ev.refs]
    case chan => grind [Ev.closes, PC.refs, Ev.refs]
    case got => grind [Ev.closes, PC.refs, Ev.refs]
    case delivered => grind [Ev.closes, PC.refs, Ev.refs]
    case returned => grind [Ev.closes, PC.refs, Ev.refs]
  | found call r ident rep hp =>
    constructor <;> simp only [G.ev, List.mem_append, List.mem_cons, List.nil_append]
    case pend => grind [Ev.closes, PC.refs, Ev.refs, Early, Ev.calls]
    case pendOpen => grind [Ev.closes, PC.refs, Ev.refs, Early, Ev.calls]
    case pendSend => grind [Ev.closes, PC.refs, Ev.refs, Early, Ev.calls]
    case refs => grind [Ev.closes, PC.refs, Ev.refs, Early, Ev.calls]
    case evRefs => grind [Ev.closes, PC.refs, Ev.refs, Early, Ev.calls]
    case look => grind [Ev.closes, PC.refs, Ev.refs, Early, Ev.calls]
    case rem => grind [Ev.closes, PC.refs, Ev.refs, Early, Ev.calls]
    case send => grind [Ev.closes, PC.refs, Ev.refs, Early, Ev.calls]
    case chan => grind [Ev.closes, PC.refs, Ev.refs, Early, Ev.calls]
    case got => grind [Ev.closes, PC.refs, Ev.refs, Early, Ev.calls]
    case delivered => grind [Ev.closes, PC.refs, Ev.refs, Early, Ev.calls]
    case returned => grind [Ev.closes, PC.refs, Ev.refs, Early, Ev.calls]
  | create id =>
    constructor <;> simp only [G.ev, List.mem_append, List.mem_cons, List.nil_append]
    case pend =>
      intro k r h
      by_cases hk : k = le64 id
      · rw [if_pos hk] at h; cases h
        exact ⟨_, List.getElem?_concat_length, hk.symm, rfl⟩
      · rw [if_neg hk] at h
        obtain ⟨q, hq, h'⟩ := h1 k r h
        exact ⟨q, by rw [List.getElem?_append_left (List.getElem?_eq_some_iff.mp hq).1]; exact hq, h'⟩
    case pendOpen =>
      intro k r h e he
      have hcr : ∀ e ∈ g.log, e.closes g.reqs.length = false := by
        intro e he
        by_contra hcl
        have := h5 e he g.reqs.length (closes_refs (by simpa using hcl))
        omega
      by_cases hk : k = le64 id
      · rw [if_pos hk] at h; cases h
        rcases he with he | he | he
        · exact hcr e he
        · subst he; rfl
        · cases he
      · rw [if_neg hk] at h
        rcases he with he | he | he
        · exact h2 k r h e he
        · subst he; rfl
        · cases he
    case pendSend => grind [Ev.closes, PC.refs, Ev.refs]
    case refs => grind [Ev.closes, PC.refs, Ev.refs]
    case evRefs => grind [Ev.closes, PC.refs, Ev.refs]
    case look => grind [Ev.closes, PC.refs, Ev.refs]
    case rem => grind [Ev.closes, PC.refs, Ev.refs]
    case send => grind [Ev.closes, PC.refs, Ev.refs]
    case chan => grind [Ev.closes, PC.refs, Ev.refs]
    case got => grind [Ev.closes, PC.refs, Ev.refs]
    case delivered => grind [Ev.closes, PC.refs, Ev.refs]
    case returned => grind [Ev.closes, PC.refs, Ev.refs]
  | remove call r ident rep =>
    constructor <;> simp only [G.deregister, G.ev, List.mem_append, List.mem_cons, List.nil_append]
    case pend => grind [Ev.closes, PC.refs, Ev.refs]
    case pendOpen => grind [Ev.closes, PC.refs, Ev.refs]
    case pendSend =>
      intro k r' c rep' h
      by_cases hk : k = ident
      · rw [if_pos hk] at h; cases h
      · rw [if_neg hk] at h
        have := h3 k r' c rep' h
        obtain ⟨q, hq, hq', _⟩ := h1 k r' h
        obtain ⟨_, ⟨q2, hq2, hq2'⟩, _⟩ := h7 call r ident rep (by simp)
        rintro (hm | (hm | hm) | hm)
        · simp_all
        · cases hm; grind
        · cases hm
        · simp_all
    case refs => grind [Ev.closes, PC.refs, Ev.refs]
    case evRefs => grind [Ev.closes, PC.refs, Ev.refs]
    case look => grind [Ev.closes, PC.refs, Ev.refs]
    case rem => grind [Ev.closes, PC.refs, Ev.refs]
    case send =>
      intro c r' rep' h
      have h8' := h8 c r' rep'
      rcases h with h | (h | h) | h
      · exact h8' (.inl h)
      · cases h
        obtain ⟨a, ⟨q2, hq2, rfl⟩, b⟩ := h7 _ _ _ _ (.inr (.inl rfl))
        exact ⟨q2, hq2, a, b⟩
      · cases h
      · exact h8' (.inr (.inr h))
    case chan => grind [Ev.closes, PC.refs, Ev.refs]
    case got => grind [Ev.closes, PC.refs, Ev.refs]
    case delivered => grind [Ev.closes, PC.refs, Ev.refs]
    case returned => grind [Ev.closes, PC.refs, Ev.refs]
  | send call r rep q hq hc =>
    obtain ⟨q8, hq8, hc8, he8⟩ := h8 call r rep (.inr (.inl rfl))
    have hq8' : q8 = q := by rw [hq] at hq8; exact (Option.some.inj hq8).symm
    subst hq8'
    have hset : ∀ (i : Nat) (q' : Request R), g.reqs[i]? = some q' →
        ∃ q'', (g.reqs.set r { q8 with chan := some rep })[i]? = some q'' ∧ q''.ident = q'.ident := by
      intro i q' hq'
      by_cases hir : r = i
      · subst hir; grind
      · exact ⟨q', by rw [List.getElem?_set_ne hir]; exact hq', rfl⟩
    constructor <;> simp only [G.ev, List.mem_append, List.mem_cons, List.nil_append]
    case pend => grind [Ev.closes, PC.refs, Ev.refs]
    case pendOpen => grind [Ev.closes, PC.refs, Ev.refs]
    case pendSend => grind [Ev.closes, PC.refs, Ev.refs]
    case refs => grind [Ev.closes, PC.refs, Ev.refs]
    case evRefs => grind [Ev.closes, PC.refs, Ev.refs]
    case look => grind [Ev.closes, PC.refs, Ev.refs]
    case rem => grind [Ev.closes, PC.refs, Ev.refs]
    case send => grind [Ev.closes, PC.refs, Ev.refs]
    case chan => grind (splits := 20) [Ev.closes, PC.refs, Ev.refs]
    case got => grind [Ev.closes, PC.refs, Ev.refs]
    case delivered => grind (splits := 20) [Ev.closes, PC.refs, Ev.refs]
    case returned =>
      rintro c (h | h | h | h)
      · obtain ⟨r', hr'⟩ := h12 c h; exact ⟨r', .inl hr'⟩
      · cases h
      · cases h; exact ⟨r, .inr (.inl rfl)⟩
      · cases h
  | ctxDone r =>
    constructor <;> simp only [G.ev, List.mem_append, List.mem_cons, List.nil_append]
    case pend => grind [Ev.closes, PC.refs, Ev.refs]
    case pendOpen => grind [Ev.closes, PC.refs, Ev.refs]
    case pendSend => grind [Ev.closes, PC.refs, Ev.refs]
    case refs =>
      intro pc hpc r' hr'
      rcases hpc with h | (h | h) | h
      · exact h4 pc (.inl h) r' hr'
      · subst h; exact h4 _ (.inr (.inl rfl)) r' hr'
      · cases h
      · exact h4 pc (.inr (.inr h)) r' hr'
    case evRefs => grind [Ev.closes, PC.refs, Ev.refs]
    case look => grind [Ev.closes, PC.refs, Ev.refs]
    case rem => grind [Ev.closes, PC.refs, Ev.refs]
    case send => grind [Ev.closes, PC.refs, Ev.refs]
    case chan => grind [Ev.closes, PC.refs, Ev.refs]
    case got => grind [Ev.closes, PC.refs, Ev.refs]
    case delivered => grind [Ev.closes, PC.refs, Ev.refs]
    case returned => grind [Ev.closes, PC.refs, Ev.refs]
  | receive r rep q hq hc =>
    obtain ⟨c9, hd9, hc9⟩ := h9 r q rep hq hc
    have hset : ∀ (i : Nat) (q' : Request R), g.reqs[i]? = some q' →
        ∃ q'', (g.reqs.set r { q with chan := none })[i]? = some q'' ∧ q''.ident = q'.ident := by
      intro i q' hq'
      by_cases hir : r = i
      · subst hir; grind
      · exact ⟨q', by rw [List.getElem?_set_ne hir]; exact hq', rfl⟩
    constructor <;> simp only [G.ev, List.mem_append, List.mem_cons, List.nil_append]
    case pend => grind [Ev.closes, PC.refs, Ev.refs]
    case pendOpen => grind [Ev.closes, PC.refs, Ev.refs]
    case pendSend => grind [Ev.closes, PC.refs, Ev.refs]
    case refs => grind [Ev.closes, PC.refs, Ev.refs]
    case evRefs => grind [Ev.closes, PC.refs, Ev.refs]
    case look => grind [Ev.closes, PC.refs, Ev.refs]
    case rem => grind [Ev.closes, PC.refs, Ev.refs]
    case send => grind [Ev.closes, PC.refs, Ev.refs]
    case chan => grind [Ev.closes, PC.refs, Ev.refs]
    case got => grind [Ev.closes, PC.refs, Ev.refs]
    case delivered => grind (splits := 20) [Ev.closes, PC.refs, Ev.refs]
    case returned => grind [Ev.closes, PC.refs, Ev.refs]
  | forget r q hq =>
    constructor <;> simp only [G.deregister, G.ev, List.mem_append, List.mem_cons, List.nil_append]
    case pend => grind [Ev.closes, PC.refs, Ev.refs]
    case pendOpen => grind [Ev.closes, PC.refs, Ev.refs]
    case pendSend => grind [Ev.closes, PC.refs, Ev.refs]
    case refs => grind [Ev.closes, PC.refs, Ev.refs]
    case evRefs => grind [Ev.closes, PC.refs, Ev.refs]
    case look => grind [Ev.closes, PC.refs, Ev.refs]
    case rem => grind [Ev.closes, PC.refs, Ev.refs]
    case send => grind [Ev.closes, PC.refs, Ev.refs]
    case chan => grind [Ev.closes, PC.refs, Ev.refs]
    case got => grind [Ev.closes, PC.refs, Ev.refs]
    case delivered => grind [Ev.closes, PC.refs, Ev.refs]
    case returned => grind [Ev.closes, PC.refs, Ev.refs]

end Webwire.Req
