import Verif.Model.Whole
import Verif.Proofs.Lifecycle

/-!
# What C98 talks about

Executions of clients and the server together in which, on one connection, nobody asks for anything new.
-/

set_option autoImplicit false

namespace Webwire.Whole.Spec

/-- Something new is asked for: a client calls `Create` or `AwaitReply`, or sends a message; the server sends a message that
is no reply; a client connects; `Close` or `Shutdown` is called. -/
def New : Label → Prop
  | .client _ (.thread ..) => False
  | .client .. | .send _ | .other _ | .push _ => True
  | .server (.thread ..) => False
  | .server _ => True
  | _ => False

/-- What can be relied on to happen once it can: goroutines go on, handlers return, messages on their way are read. Not: that
reading or writing fails, or that the context of a call of `AwaitReply` ends. -/
def Due : Label → Prop
  | .client _ (.thread _ ctxDone) => ctxDone = false
  | .server (.thread (.reading _) _) | .server (.thread (.refusing ..) _) => False
  | .server (.thread ..) => True
  | .receive _ | .finish .. | .refuse .. | .told _ | .skip _ => True
  | _ => False

/-- A step on the connection. -/
def On (c : ConnId) : Label → Prop
  | .client c' _ | .send c' | .other c' | .receive c' | .finish c' _ | .refuse c' _ | .push c' | .told c' | .skip c' => c' = c
  | .server (.thread pc _) => pc.isOn c = true
  | .server (.connect c' _) | .server (.close c') => c' = c
  | .server .shutdown => False

/-- An execution in which nothing new is asked for on the connection, with `n` steps there, and any number of steps
elsewhere. -/
inductive Run (cfg : Cfg) (c : ConnId) (s : State) : Nat → State → Prop
  | start : Run cfg c s 0 s
  | own (n : Nat) (s' : State) (l : Label) (s'' : State) : Run cfg c s n s' → On c l → ¬ New l → Step cfg s' l s'' →
      Run cfg c s (n + 1) s''
  | elsewhere (n : Nat) (s' : State) (l : Label) (s'' : State) : Run cfg c s n s' → ¬ On c l → Step cfg s' l s'' →
      Run cfg c s n s''

/-- Everything that can be relied on to happen on the connection has happened. -/
def Quiet (cfg : Cfg) (s : State) (c : ConnId) : Prop := ∀ l s', On c l → Due l → ¬ Step cfg s l s'

end Webwire.Whole.Spec
