import Verif.Model.Replies

/-!
# Replies: who holds which message
-/

set_option autoImplicit false

namespace Webwire.Replies

/-- The message a call of `Fulfill` under way was given. -/
def carries : Req.PC Rep → Option (Nat × Mark)
  | .looking _ _ (.msg i mk) | .removing _ _ _ (.msg i mk) | .sending _ _ (.msg i mk) => some (i, mk)
  | _ => none

/-- The message waiting in the channel of a request. -/
def waits (q : Req.Request Rep) : Option (Nat × Mark) :=
  match q.chan with
  | some (.msg i mk) => some (i, mk)
  | _ => none

/-- The messages in use: held by the reader, passed to `Fulfill`, waiting for `AwaitReply`, or in replies that are not
closed. -/
def inUse (s : State) : List (Nat × Mark) :=
  s.reading ++ s.req.threads.filterMap carries ++ s.req.g.reqs.filterMap waits ++ s.replies.map Prod.snd

/-- Nobody closes a reply again that was closed before while its message is in use for something else. -/
def CloseOnce (s : State) : Label → Prop
  | .closeAgain _ i => ∀ mk, (i, mk) ∉ inUse s
  | _ => True

/-! ## Playing concrete executions -/

/-- What to do next. -/
inductive Cmd
  | go (n : Nat) (ctxDone : Bool := false)
  | create
  | await (r : Nat)
  | fail (k : Bytes) (e : String)
  | fulfill (i : Nat) (mk : Mark)
  | getNew
  | getFree (i : Nat)
  | gc (i : Nat)
  | read (i : Nat) (mk : Mark) (bs : Bytes)
  | close (i : Nat) (mk : Mark)
  | closeReply (r i : Nat) (mk : Mark)
  | closeAgain (r i : Nat)

/-- The label of the step. -/
def Cmd.label (s : State) : Cmd → Option Label
  | .go n b => s.req.threads[n]?.map fun pc => .thread pc b
  | .create => some .create
  | .await r => some (.await r)
  | .fail k e => some (.fail k e)
  | .fulfill i _ => some (.fulfill i)
  | .getNew => some .getNew
  | .getFree i => some (.getFree i)
  | .gc i => some (.gc i)
  | .read i _ bs => some (.read i bs)
  | .close i _ => some (.close i)
  | .closeReply r i _ => some (.closeReply r i)
  | .closeAgain r i => some (.closeAgain r i)

/-- Make the step if possible. -/
def exec (s : State) : Cmd → Option State
  | .go n b =>
    match s.req.threads[n]? with
    | none => none
    | some pc =>
      match Req.act s.req.g b pc with
      | none => none
      | some (g', pcs) => some { s with
          req := ⟨g', s.req.threads.take n ++ (pcs ++ s.req.threads.drop (n + 1))⟩,
          reading := (gives s.req.g b pc).1 ++ s.reading,
          replies := (gives s.req.g b pc).2 ++ s.replies }
  | .create => some { s with
      req := ⟨({ s.req.g with lastID := s.req.g.lastID + 1 } : Req.G Rep).ev [.drew (s.req.g.lastID + 1)],
        .creating (s.req.g.lastID + 1) :: s.req.threads⟩ }
  | .await r =>
    if r < s.req.g.reqs.length then some { s with req := ⟨s.req.g, .awaiting r :: s.req.threads⟩ } else none
  | .fail k e => some { s with
      req := ⟨s.req.g.ev [.called s.req.g.calls k (.err e)], .looking s.req.g.calls k (.err e) :: s.req.threads⟩ }
  | .fulfill i mk =>
    if (i, mk) ∈ s.reading then
      match s.pool.heap[i]? with
      | none => none
      | some m => some { s with
          req := ⟨s.req.g.ev [.called s.req.g.calls m.ident (.msg i mk)],
            .looking s.req.g.calls m.ident (.msg i mk) :: s.req.threads⟩,
          reading := s.reading.erase (i, mk) }
    else none
  | .getNew => some { s with pool := s.pool.getNew.1, reading := (s.pool.getNew.2, .fresh) :: s.reading }
  | .getFree i =>
    if i ∈ s.pool.free then some { s with pool := s.pool.getFree i, reading := (i, .fresh) :: s.reading } else none
  | .gc i => if i ∈ s.pool.free then some { s with pool := s.pool.dropFree i } else none
  | .read i mk bs =>
    if (i, mk) ∈ s.reading then
      match s.pool.readBytes i bs with
      | .ok (p, tp, e) => some { s with pool := p, reading := (i, mk.read bs tp e) :: s.reading.erase (i, mk) }
      | .error _ => none
    else none
  | .close i mk =>
    if (i, mk) ∈ s.reading then some { s with pool := s.pool.close i, reading := s.reading.erase (i, mk) } else none
  | .closeReply r i mk =>
    if (r, i, mk) ∈ s.replies then some { s with
      pool := replyClose s.pool i, replies := s.replies.erase (r, i, mk), closed := (r, i) :: s.closed } else none
  | .closeAgain r i =>
    if (r, i) ∈ s.closed then some { s with pool := replyClose s.pool i } else none

/-- Make the steps, each of which has to pass the check. -/
def play (ok : State → Label → Bool) (s : State) : List Cmd → Option State
  | [] => some s
  | cmd :: cmds =>
    match cmd.label s, exec s cmd with
    | some l, some s' => if ok s l then play ok s' cmds else none
    | _, _ => none

theorem exec_step {s s' : State} {cmd : Cmd} {l : Label} (hl : cmd.label s = some l)
    (h : exec s cmd = some s') : Step s l s' := by
  cases cmd with
  | go n b =>
    simp only [Cmd.label, exec] at hl h
    cases hi : s.req.threads[n]? with
    | none => simp [hi] at hl
    | some pc =>
      simp only [hi, Option.map_some, Option.some.injEq] at hl h
      subst hl
      split at h
      · cases h
      · rename_i g' pcs ha
        cases h
        have hts : s.req.threads = s.req.threads.take n ++ pc :: s.req.threads.drop (n + 1) := by
          obtain ⟨hlt, hpc⟩ := List.getElem?_eq_some_iff.mp hi
          rw [← hpc, ← List.drop_eq_getElem_cons hlt, List.take_append_drop]
        have := Req.Step.thread s.req.g g' (s.req.threads.take n) (s.req.threads.drop (n + 1)) pcs pc b ha
        rw [← hts] at this
        exact .thread s _ pc b this
  | create => simp only [Cmd.label, exec, Option.some.injEq] at hl h; subst hl; subst h; exact .create s _ (.create _ _)
  | await r =>
    simp only [Cmd.label, exec, Option.some.injEq] at hl h
    split at h
    · rename_i hr; subst hl; cases h; exact .await s _ r (.await _ _ r hr)
    · cases h
  | fail k e =>
    simp only [Cmd.label, exec, Option.some.injEq] at hl h; subst hl; subst h; exact .fail s _ k e (.call _ _ _ _)
  | fulfill i mk =>
    simp only [Cmd.label, exec, Option.some.injEq] at hl h
    split at h
    · rename_i hr
      split at h
      · cases h
      · rename_i m hm; subst hl; cases h; exact .fulfill s _ i mk m hr hm (.call _ _ _ _)
    · cases h
  | getNew => simp only [Cmd.label, exec, Option.some.injEq] at hl h; subst hl; subst h; exact .getNew s
  | getFree i =>
    simp only [Cmd.label, exec, Option.some.injEq] at hl h
    split at h
    · rename_i hr; subst hl; cases h; exact .getFree s i hr
    · cases h
  | gc i =>
    simp only [Cmd.label, exec, Option.some.injEq] at hl h
    split at h
    · rename_i hr; subst hl; cases h; exact .gc s i hr
    · cases h
  | read i mk bs =>
    simp only [Cmd.label, exec, Option.some.injEq] at hl h
    split at h
    · rename_i hr
      split at h
      · rename_i p tp e hp; subst hl; cases h; exact .read s i mk bs p tp e hr hp
      · cases h
    · cases h
  | close i mk =>
    simp only [Cmd.label, exec, Option.some.injEq] at hl h
    split at h
    · rename_i hr; subst hl; cases h; exact .close s i mk hr
    · cases h
  | closeReply r i mk =>
    simp only [Cmd.label, exec, Option.some.injEq] at hl h
    split at h
    · rename_i hr; subst hl; cases h; exact .closeReply s r i mk hr
    · cases h
  | closeAgain r i =>
    simp only [Cmd.label, exec, Option.some.injEq] at hl h
    split at h
    · rename_i hr; subst hl; cases h; exact .closeAgain s r i hr
    · cases h

theorem play_reachable {size : Nat} {ok : State → Label → Prop} {okb : State → Label → Bool}
    (hok : ∀ s l, okb s l = true → ok s l) (cmds : List Cmd) {s s' : State} (hr : ReachableIf size ok s)
    (h : play okb s cmds = some s') : ReachableIf size ok s' := by
  induction cmds generalizing s with
  | nil => cases h; exact hr
  | cons cmd cmds ih =>
    simp only [play] at h
    split at h
    · rename_i l s1 hl he
      split at h
      · rename_i hb
        exact ih (.step s l s1 hr (hok s l hb) (exec_step hl he)) h
      · cases h
    · cases h

/-- `CloseOnce`, computed. -/
def closeOnce (s : State) : Label → Bool
  | .closeAgain _ i => (inUse s).all fun x => decide (x.1 ≠ i)
  | _ => true

theorem closeOnce_ok (s : State) (l : Label) (h : closeOnce s l = true) : CloseOnce s l := by
  cases l with
  | closeAgain r i =>
    intro mk hm
    simp only [closeOnce, List.all_eq_true] at h
    have := h _ hm
    simp at this
  | _ => trivial

end Webwire.Replies
