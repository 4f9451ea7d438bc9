import Verif.Proofs.Whole5
import Verif.Proofs.LifecycleExec

/-!
# Playing concrete executions of clients and the server

For examples and counterexamples only.
-/

set_option autoImplicit false

namespace Webwire.Whole
open _root_.Webwire.Spec

/-- What to do next. -/
inductive Cmd
  /-- a step of the client -/
  | cl (c : ConnId) (cmd : Req.Cmd Rep)
  | ask (c : ConnId) (r : Nat) (ask : Ask)
  /-- the client sends something that is no request -/
  | other (c : ConnId) (bs : Bytes)
  /-- a step of the server -/
  | sv (cmd : Life.Cmd)
  /-- the i-th goroutine of the server receives the next message -/
  | recv (i : Nat)
  /-- ... ends the handler and replies -/
  | ends (i : Nat) (out : Out) (up : Bool := true)
  /-- ... refuses the request -/
  | refuse (i : Nat)
  /-- the client reads the next message -/
  | read (c : ConnId)

/-- The client sends a request. -/
abbrev Cmd.send (c : ConnId) (r : Nat) (name : Bytes) (enc : Encoding) (payload : Bytes) : Cmd := .ask c r (.request name enc payload)

/-- `OnRequest` ends. -/
abbrev Cmd.fin (i : Nat) (out : RequestOut) (up : Bool := true) : Cmd := .ends i (.hook out) up

/-- No key is empty. -/
def Ask.keyed : Ask → Bool
  | .restore [] => false
  | _ => true

/-- `Internal`, computed. -/
def internal : Life.Label → Bool
  | .thread (.reading _) ch => ch.msg.isNone
  | .thread (.refusing _ _) ch => !ch.writerOk
  | .thread (.running _ m _) _ => !m.requiresReply
  | _ => true

/-- Make the step if possible. -/
def exec (cfg : Cfg) (s : State) : Cmd → Option State
  | .cl c cmd =>
    match cmd with
    | .call _ _ => none
    | cmd => (Req.exec (s.clients c) cmd).map fun cl => { s with clients := put s.clients c cl }
  | .ask c r ask =>
    match (s.clients c).g.reqs[r]? with
    | none => none
    | some q =>
      if ((s.sent c).all fun x => match x.req with | some k => decide (k.r ≠ r) | none => true) && ask.keyed then
        match ask.write (observed pipe) (([], []), []) q.ident false with
        | .ok ((_, log), none) => some { s with sent := put s.sent c (s.sent c ++ [⟨some ⟨r, ask⟩, written log⟩]) }
        | _ => none
      else none
  | .other c bs =>
    match readMsg cfg.srv.bufferSize.toNat bs with
    | some m => if m.requiresReply then none else some { s with sent := put s.sent c (s.sent c ++ [⟨none, bs⟩]) }
    | none => some { s with sent := put s.sent c (s.sent c ++ [⟨none, bs⟩]) }
  | .sv cmd =>
    match cmd.label s.srv, Life.exec s.srv cmd with
    | some l, some srv => if internal l then some { s with srv := srv } else none
    | _, _ => none
  | .recv i =>
    match s.srv.threads[i]? with
    | some (.reading c) =>
      match (s.sent c)[s.taken c]? with
      | some x =>
        (Life.exec s.srv (.go i ⟨incoming cfg (s.taken c) x.bytes, true⟩)).map fun srv =>
          { s with srv := srv, taken := put s.taken c (s.taken c + 1) }
      | none => none
    | _ => none
  | .ends i out up =>
    match s.srv.threads[i]? with
    | some (.running c lm _) =>
      match (s.sent c)[lm.id]? with
      | some x =>
        match readMsg cfg.srv.bufferSize.toNat x.bytes with
        | some m =>
          if decide (lm.kind = out.kind) && out.fits cfg.srv.sessionsEnabled m.msgType then
            match answers cfg c m out up with
            | .ok bs =>
              (Life.exec s.srv (.go i {})).map fun srv => { s with
                srv := srv, results := s.results ++ [⟨c, lm.id, m, out, up⟩],
                back := put s.back c (s.back c ++ bs.map fun b => (some lm.id, b)) }
            | _ => none
          else none
        | none => none
      | none => none
    | _ => none
  | .refuse i =>
    match s.srv.threads[i]? with
    | some (.refusing c lm) =>
      match (s.sent c)[lm.id]? with
      | some x =>
        match readMsg cfg.srv.bufferSize.toNat x.bytes with
        | some m =>
          match refusal cfg c m with
          | .ok bs =>
            (Life.exec s.srv (.go i {})).map fun srv => { s with
              srv := srv, back := put s.back c (s.back c ++ bs.map fun b => (some lm.id, b)) }
          | _ => none
        | none => none
      | none => none
    | _ => none
  | .read c =>
    match (s.back c)[s.seen c]? with
    | none => none
    | some y =>
      match tells cfg y.2 with
      | none => some { s with seen := put s.seen c (s.seen c + 1) }
      | some (k, rep) => (Req.exec (s.clients c) (.call k rep)).map fun cl =>
          { s with clients := put s.clients c cl, seen := put s.seen c (s.seen c + 1) }

/-- Make the steps. -/
def play (cfg : Cfg) (s : State) : List Cmd → Option State
  | [] => some s
  | cmd :: cmds =>
    match exec cfg s cmd with
    | some s' => play cfg s' cmds
    | none => none

variable {cfg : Cfg} {s s' : State}

theorem internal_ok {l : Life.Label} (h : internal l = true) : Internal l := by
  unfold internal at h
  unfold Internal
  split at h <;> simp_all

theorem go_step {i : Nat} {ch : Life.Choice} {pc : Life.PC} {t t' : Life.State} (hp : t.threads[i]? = some pc)
    (h : Life.exec t (.go i ch) = some t') : Life.Step t (.thread pc ch) t' :=
  Life.exec_step (cmd := .go i ch) (by simp [Life.Cmd.label, hp]) h

theorem exec_label {cmd : Cmd} (h : exec cfg s cmd = some s') :
    ∃ l, Step cfg s l s' ∧ ∀ l', l = .server l' → ∃ cmd', cmd = .sv cmd' ∧ cmd'.label s.srv = some l' := by
  cases cmd with
  | cl c cmd =>
    simp only [exec] at h
    split at h
    · cases h
    · rename_i hne
      obtain ⟨cl, hcl, rfl⟩ := Option.map_eq_some_iff.mp h
      have hl : ∃ l, cmd.label (s.clients c) = some l ∧ ∀ k rep, l ≠ .call k rep := by
        cases cmd with
        | go i b =>
          simp only [Req.exec] at hcl
          cases ht : (s.clients c).threads[i]? with
          | none => simp [ht] at hcl
          | some pc => exact ⟨.thread pc b, by simp [Req.Cmd.label, ht], by simp⟩
        | create => exact ⟨_, rfl, by simp⟩
        | call k p => exact absurd rfl (hne k p)
        | await r => exact ⟨_, rfl, by simp⟩
      obtain ⟨l, hl, hn⟩ := hl
      exact ⟨_, .client c l cl hn (Req.exec_step hl hcl), by simp⟩
  | ask c r ask =>
    simp only [exec] at h
    split at h
    · cases h
    · rename_i q hq
      split at h
      · rename_i hall
        rw [Bool.and_eq_true] at hall
        split at h
        · rename_i st log hw
          cases h
          refine ⟨_, .send c r q ask false st log hq ?_ ?_ hw, by simp⟩
          · intro x hx k hk
            have := List.all_eq_true.mp hall.1 x hx
            simpa [hk] using this
          · rintro rfl
            cases hall.2
        · cases h
      · cases h
  | other c bs =>
    simp only [exec] at h
    split at h
    · rename_i m hm
      split at h
      · cases h
      · rename_i hq
        cases h
        exact ⟨_, .other c bs (fun m' hm' => by rw [hm] at hm'; cases hm'; simpa using hq), by simp⟩
    · rename_i hm
      cases h
      exact ⟨_, .other c bs (fun m' hm' => by rw [hm] at hm'; cases hm'), by simp⟩
  | sv cmd =>
    simp only [exec] at h
    split at h
    · rename_i l srv hl he
      split at h
      · rename_i hi
        cases h
        exact ⟨_, .server l srv (internal_ok hi) (Life.exec_step hl he), fun l' e => ⟨cmd, rfl, by cases e; exact hl⟩⟩
      · cases h
    · cases h
  | recv i =>
    simp only [exec] at h
    split at h
    · rename_i c hp
      split at h
      · rename_i x hx
        obtain ⟨srv, he, rfl⟩ := Option.map_eq_some_iff.mp h
        exact ⟨_, .receive c x true srv hx (go_step hp he), by simp⟩
      · cases h
    · cases h
  | ends i out up =>
    simp only [exec] at h
    split at h
    · rename_i c lm inl hp
      split at h
      · rename_i x hx
        split at h
        · rename_i m hm
          split at h
          · rename_i hok
            rw [Bool.and_eq_true, decide_eq_true_eq] at hok
            obtain ⟨kd, n⟩ := lm
            obtain ⟨hk, hfit⟩ := hok
            simp only at hk
            subst hk
            split at h
            · rename_i bs hb
              obtain ⟨srv, he, rfl⟩ := Option.map_eq_some_iff.mp h
              exact ⟨_, .finish c n inl up {} out x m bs srv hx hm (go_step hp he) hfit hb, by simp⟩
            · cases h
          · cases h
        · cases h
      · cases h
    · cases h
  | refuse i =>
    simp only [exec] at h
    split at h
    · rename_i c lm hp
      split at h
      · rename_i x hx
        split at h
        · rename_i m hm
          split at h
          · rename_i bs hb
            obtain ⟨srv, he, rfl⟩ := Option.map_eq_some_iff.mp h
            exact ⟨_, .refuse c lm x m bs {} srv hx hm rfl (go_step hp he) hb, by simp⟩
          · cases h
        · cases h
      · cases h
    · cases h
  | read c =>
    simp only [exec] at h
    split at h
    · cases h
    · rename_i y hy
      split at h
      · rename_i ht
        cases h
        exact ⟨_, .skip c y hy ht, by simp⟩
      · rename_i k rep ht
        obtain ⟨cl, hcl, rfl⟩ := Option.map_eq_some_iff.mp h
        exact ⟨_, .told c y k rep cl hy ht (Req.exec_step rfl hcl), by simp⟩

theorem exec_step {cmd : Cmd} (h : exec cfg s cmd = some s') : ∃ l, Step cfg s l s' :=
  let ⟨l, hl, _⟩ := exec_label h
  ⟨l, hl⟩

theorem play_reachable (cmds : List Cmd) (hr : Reachable cfg s) (h : play cfg s cmds = some s') : Reachable cfg s' := by
  induction cmds generalizing s with
  | nil => cases h; exact hr
  | cons cmd cmds ih =>
    simp only [play] at h
    split at h
    · rename_i s1 he
      obtain ⟨l, hl⟩ := exec_step he
      exact ih (.step _ _ _ hr hl) h
    · cases h

end Webwire.Whole
