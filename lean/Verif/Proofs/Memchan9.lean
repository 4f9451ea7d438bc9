import Verif.Proofs.Memchan8

/-! # Messages that fit the buffer (C52) -/

set_option autoImplicit false

namespace Webwire.Mem

/-- The buffers keep their size, and nothing longer was read. -/
structure Sized (size : Nat) (g : G) : Prop where
  arr : ∀ p x, (g.sock p x).arr.length = size
  len : ∀ p x, (g.sock p x).len ≤ size
  read : ∀ p x m, Ev.copied p x m ∈ g.log → m.length ≤ size

theorem Sized.upd {size : Nat} {g : G} (h : Sized size g) {p : Nat} {x : Side} {f : Sock → Sock}
    (h1 : (f (g.sock p x)).arr.length = size) (h2 : (f (g.sock p x)).len ≤ size) : Sized size (g.upd p x f) := by
  refine ⟨fun q y => ?_, fun q y => ?_, h.read⟩
  · rw [sock_upd]; split
    · rename_i e; obtain ⟨rfl, rfl⟩ := e; exact h1
    · exact h.arr q y
  · rw [sock_upd]; split
    · rename_i e; obtain ⟨rfl, rfl⟩ := e; exact h2
    · exact h.len q y

theorem Sized.ev {size : Nat} {g : G} (h : Sized size g) {e : Ev} (he : ∀ p x m, e = .copied p x m → m.length ≤ size) :
    Sized size (g.ev e) := by
  refine ⟨fun q y => h.arr q y, fun q y => h.len q y, fun q y m hm => ?_⟩
  simp only [log_ev, List.mem_append, List.mem_singleton] at hm
  rcases hm with hm | rfl
  · exact h.read q y m hm
  · exact he _ _ _ rfl

theorem Sized.setConn {size : Nat} {g : G} (h : Sized size g) {p : Nat} {b : Bool} : Sized size (g.setConn p b) := by
  refine ⟨fun q y => ?_, fun q y => ?_, h.read⟩
  · rw [sock_setConn]; exact h.arr q y
  · rw [sock_setConn]; exact h.len q y

theorem Sized.setListed {size : Nat} {g : G} (h : Sized size g) {p : Nat} {b : Bool} : Sized size (g.setListed p b) := by
  refine ⟨fun q y => ?_, fun q y => ?_, h.read⟩
  · rw [sock_setListed]; exact h.arr q y
  · rw [sock_setListed]; exact h.len q y

theorem Sized.acts {size : Nat} {g g' : G} {pc : PC} {pcs : List PC} (h : Sized size g) (ha : Acts g pc g' pcs) :
    Sized size g' := by
  cases ha
  case w3c p x msg c chunks h1 h2 =>
    have := h.arr p x
    have := h.len p x
    refine h.upd ?_ ?_
    · simp only [Sock.put, List.length_append, List.length_take, List.length_drop]; omega
    · simp only [Sock.put]; omega
  case r5 p x n =>
    refine h.ev fun q y m e => ?_
    cases e
    have := h.arr p x.other
    simp only [List.length_take]; omega
  all_goals
    first
    | exact h
    | exact h.ev (by intro _ _ _ e; cases e)
    | exact h.setConn
    | exact h.setListed
    | exact (h.setListed).ev (by intro _ _ _ e; cases e)
    | exact ⟨h.arr, h.len, h.read⟩
    | exact h.upd (h.arr _ _) (by first | exact h.len _ _ | exact Nat.zero_le _)
    | exact (h.upd (h.arr _ _) (by first | exact h.len _ _ | exact Nat.zero_le _)).ev (by intro _ _ _ e; cases e)
    | exact ((h.setListed).upd (by rw [sock_setListed]; exact h.arr _ _) (by rw [sock_setListed]; exact h.len _ _)).ev
        (by intro _ _ _ e; cases e)
    | skip
  case w9 p x msg ok _ =>
    have h1 : Sized size (g.upd p x.other fun s => { s with recv := .absent }) := h.upd (h.arr _ _) (h.len _ _)
    exact h1.upd (h1.arr _ _) (h1.len _ _)

theorem sized {size : Nat} {s : State} (h : Reachable size s) : Sized size s.g := by
  refine From.inv (I := fun g _ => Sized size g) (fun _ _ _ h _ => h) (fun _ _ _ _ _ _ _ _ h _ _ _ ha => h.acts ha)
    (fun _ _ _ _ _ h _ => h) (fun _ _ _ _ _ h _ => h) (fun _ _ _ h _ => h) (fun _ _ _ _ h _ => h) (fun _ _ h _ => h)
    (fun _ _ h _ => h) (fun _ _ h _ => ⟨h.arr, h.len, h.read⟩) (s := init size) ?_ h
  refine ⟨fun p x => ?_, fun p x => ?_, fun p x m hm => ?_⟩
  · cases x <;> simp [init, G.sock]
  · cases x <;> simp [init, G.sock]
  · simp [init] at hm

end Webwire.Mem
