import Verif.Model.Lifecycle

/-!
# Executions of the server: what properties C25-C30 talk about

Handlers are seen through the log: a handler runs between its `start` and its `finish`.
-/

set_option autoImplicit false

namespace Webwire.Life

/-- A handler starts on the connection. -/
def LEv.isStart (c : ConnId) : LEv → Bool
  | .start c' _ => decide (c' = c)
  | _ => false

/-- A handler ends on the connection. -/
def LEv.isFinish (c : ConnId) : LEv → Bool
  | .finish c' _ => decide (c' = c)
  | _ => false

/-- A message of the connection is answered with the shutdown reply. -/
def LEv.isRefused (c : ConnId) : LEv → Bool
  | .refused c' _ => decide (c' = c)
  | _ => false

/-- Events of the connection. -/
def LEv.isOf (c : ConnId) : LEv → Bool
  | .arrived c' _ | .dropped c' _ | .refused c' _ | .start c' _ | .finish c' _ | .disconnected c' => decide (c' = c)
  | .stop | .transportDown => false

/-- The handlers of the connection that run at the end of the log. -/
def handlersRunning (log : List LEv) (c : ConnId) : Int := log.countP (LEv.isStart c) - log.countP (LEv.isFinish c)

/-- Handlers of this very message that run at the end of the log. -/
def msgRunning (log : List LEv) (c : ConnId) (m : LMsg) : Int := log.count (.start c m) - log.count (.finish c m)

namespace Spec

/-- No message without reply (signal or unexpected type) gets past the shutdown check once the flag is set. -/
def NoLateSignal (s : State) (l : Label) : Prop :=
  ∀ c m ch, l = .thread (.counting c m) ch → s.g.shutdown = true → m.requiresReply = true

/-- There are fewer than 2^32 goroutines. -/
def FewGoroutines (s : State) (_ : Label) : Prop := s.threads.length + 1 < 2 ^ 32

/-- `Close` does not interfere with a message between the check of the connection's state and `registerTask`. -/
def NoCloseRace (s : State) (l : Label) : Prop :=
  ∀ c rd ch, l = .thread (.closing c rd) ch → (s.g.conns c).active = true →
    ∀ m, PC.acquiring c m ∉ s.threads ∧ PC.counting c m ∉ s.threads ∧ PC.tasking c m ∉ s.threads

/-- `GetWriter` succeeds. -/
def WritersOk (_ : State) (l : Label) : Prop := ∀ pc ch, l = .thread pc ch → ch.writerOk = true

/-- Nobody closes the connection, and reading from its socket does not fail. -/
def LeftAlone (c : ConnId) (_ : State) : Label → Prop
  | .close c' => c' ≠ c
  | .thread (.reading c') ch => c' = c → ch.msg ≠ none
  | _ => True

/-- No handler returns, nobody calls anything, and no message arrives but this one. -/
def Only (c : ConnId) (m : LMsg) (_ : State) : Label → Prop
  | .thread (.running ..) _ => False
  | .thread (.reading c') ch => c' = c ∧ ch.msg = some m
  | .thread .. => True
  | _ => False

/-- The states after any finite execution, from `s`, in which every step satisfies `ok`. -/
inductive Then (ok : State → Label → Prop) (s : State) : State → Prop
  | start : Then ok s s
  | step (s' : State) (l : Label) (s'' : State) : Then ok s s' → ok s' l → Step s' l s'' → Then ok s s''

/-- A goroutine of the connection that is about to call a handler, or is in it. -/
def handling (c : ConnId) : PC → Bool
  | .starting c' _ _ | .running c' _ _ => decide (c' = c)
  | _ => false

/-- There is a limit, and as many handlers as it allows. -/
def Full (s : State) (c : ConnId) : Prop :=
  1 < (s.g.conns c).limit ∧ (s.g.conns c).limit ≤ s.threads.countP (handling c)

end Spec

end Webwire.Life
