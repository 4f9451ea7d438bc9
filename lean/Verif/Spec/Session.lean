import Verif.Spec.Server

/-!
# Sessions: histories and what the registry should say
-/

set_option autoImplicit false

namespace Webwire.Spec

/-- How hooks change the user's state. -/
inductive UserStep {υ : Type} (hooks : Hooks υ) : υ → υ → Prop
  | connected (u : υ) (c : ConnId) : UserStep hooks u (hooks.onClientConnected u c).1
  | disconnected (u : υ) (c : ConnId) : UserStep hooks u (hooks.onClientDisconnected u c).1
  | signal (u : υ) (c : ConnId) (m : Msg) : UserStep hooks u (hooks.onSignal u c m).1
  | request (u : υ) (c : ConnId) (m : Msg) : UserStep hooks u (hooks.onRequest u c m).1
  | created (u : υ) (c : ConnId) (s : Session) : UserStep hooks u (hooks.onSessionCreated u c s).1
  | lookup (u : υ) (k : Bytes) : UserStep hooks u (hooks.onSessionLookup u k).1
  | closed (u : υ) (k : Bytes) : UserStep hooks u (hooks.onSessionClosed u k).1
  | generate (u : υ) : UserStep hooks u (hooks.generateKey u).1

/-- User code ran as the event says, and changed the user's state from `u` to `u'`: the hook named by the event
was called with the arguments of the event. Events that are not hooks run no user code. -/
def Called {υ : Type} (hooks : Hooks υ) (u : υ) (e : Ev) (u' : υ) : Prop :=
  match e with
  | .onClientConnected c => u' = (hooks.onClientConnected u c).1
  | .onClientDisconnected c => u' = (hooks.onClientDisconnected u c).1
  | .onSignal c name enc payload => ∃ m : Msg, m.name.view m.buf = name ∧ m.payload.encoding = enc ∧
      m.payload.data.view m.buf = payload ∧ u' = (hooks.onSignal u c m).1
  | .onRequest c ident name enc payload => ∃ m : Msg, m.ident = ident ∧ m.name.view m.buf = name ∧
      m.payload.encoding = enc ∧ m.payload.data.view m.buf = payload ∧ u' = (hooks.onRequest u c m).1
  | .onSessionCreated c key => ∃ s : Session, s.key = key ∧ u' = (hooks.onSessionCreated u c s).1
  | .onSessionLookup key => u' = (hooks.onSessionLookup u key).1
  | .onSessionClosed key => u' = (hooks.onSessionClosed u key).1
  | .sent _ => u' = u
  | .sockClose _ => u' = u
  | .msgClose => u' = u

/-- The user's code ran exactly as the events say, in that order; besides that only keys were generated. -/
inductive Explains {υ : Type} (hooks : Hooks υ) : υ → List Ev → υ → Prop
  | nil (u : υ) : Explains hooks u [] u
  | generate {u u' : υ} {l : List Ev} : Explains hooks u l u' → Explains hooks u l (hooks.generateKey u').1
  | event {u u' u'' : υ} {l : List Ev} {e : Ev} : Explains hooks u l u' → Called hooks u' e u'' →
      Explains hooks u (l ++ [e]) u''

section
variable {ν υ : Type}

/-- Connection `c` currently has a session with key `k`. -/
def Holds (w : World ν υ) (c : ConnId) (k : Bytes) : Prop := ∃ s, (w.conns c).session = some s ∧ s.key = k

/-- One thing that happens to a server: a new connection, something received on a connection, an API call, the
begin of a shutdown. With `ow` false a client never asks to restore a session on a connection that already has
one. -/
inductive Step (srv : Server ν υ) (ow : Bool) : World ν υ → World ν υ → Prop
  | accept (w w' : World ν υ) (c : ConnId) (limit : Int) : w.conns c = {} →
      handleConnection srv w c limit [] = .ok w' → Step srv ow w w'
  | receive (w w' : World ν υ) (c : ConnId) (i : Incoming) :
      (ow = true ∨ (w.conns c).session = none ∨ ∀ rest, i ≠ .data (32 :: rest)) →
      serve srv w c [i] = .ok w' → Step srv ow w w'
  | api (w w' : World ν υ) (a : ApiCall) : runApi srv w a = .ok w' → Step srv ow w w'
  | shutdown (w : World ν υ) : Step srv ow w { w with shutdown := true }

/-- A server that was just started. -/
structure Started (w : World ν υ) : Prop where
  registry : w.registry = []
  conns : ∀ c, w.conns c = {}
  trace : w.trace = []

/-- The state after any finite history. -/
inductive Reachable (srv : Server ν υ) (ow : Bool) : World ν υ → Prop
  | start (w : World ν υ) : Started w → Reachable srv ow w
  | step (w w' : World ν υ) : Reachable srv ow w → Step srv ow w w' → Reachable srv ow w'

/-- The registry lists exactly the connections that have sessions. -/
structure Agrees (w : World ν υ) : Prop where
  /-- `SessionConnections(k)`, in any order, is the set of connections whose session has key `k`; `nil` if there
  is none. -/
  connections : ∀ k order, match sessionConnections w k order with
    | some l => l ≠ [] ∧ l.Nodup ∧ ∀ c, c ∈ l ↔ Holds w c k
    | none => ∀ c, ¬ Holds w c k
  /-- `ActiveSessionsNum` is the number of different keys. -/
  active : ∀ keys : List Bytes, keys.Nodup → (∀ k, k ∈ keys ↔ ∃ c, Holds w c k) → activeSessionsNum w = keys.length

/-- The key generator never repeats a key, and the session manager finds only sessions whose keys were
generated: there is a growing set `issued` of generated keys. -/
structure FreshKeys (hooks : Hooks υ) (issued : υ → Bytes → Prop) : Prop where
  grows : ∀ u u' k, UserStep hooks u u' → issued u k → issued u' k
  fresh : ∀ u, ¬ issued u (hooks.generateKey u).2
  recorded : ∀ u, issued (hooks.generateKey u).1 (hooks.generateKey u).2
  found : ∀ u k r, (hooks.onSessionLookup u k).2 = .ok (some r) → issued u k

/-- The keys of the sessions that `OnSessionClosed` was called for, in order. -/
def closedKeys (l : List Ev) : List Bytes := l.filterMap fun
  | .onSessionClosed k => some k
  | _ => none

/-- Events that are calls to the session manager. -/
def isSessionHook : Ev → Bool
  | .onSessionCreated _ _ => true
  | .onSessionLookup _ => true
  | .onSessionClosed _ => true
  | _ => false

end

end Webwire.Spec
