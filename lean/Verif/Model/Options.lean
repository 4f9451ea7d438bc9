import Verif.Model.Write

/-!
# Server options and server creation

Models `serverOptions.go` and the part of `newServer.go` that computes the configuration message.
-/

set_option autoImplicit false

namespace Webwire

/-- A component the user may provide (session manager, key generator, parser, logger): which object it is.
serverOptions.go:28-33. -/
inductive Component
  /-- the `n`-th object the user made -/
  | user (n : Nat)
  /-- the default one -/
  | dflt
  deriving DecidableEq, Repr

/-- serverOptions.go:11 `OptionValue` is `int32`. -/
abbrev OptionValue := Int
/-- serverOptions.go:15 -/
abbrev OptionUnset : OptionValue := 0
/-- serverOptions.go:18 -/
abbrev Disabled : OptionValue := 1
/-- serverOptions.go:21 -/
abbrev Enabled : OptionValue := 2

/-- serverOptions.go:26-42 `ServerOptions`; `none` is `nil`. Durations are nanoseconds. -/
structure ServerOptions where
  sessions : OptionValue := 0
  sessionManager : Option Component := none
  sessionKeyGenerator : Option Component := none
  sessionInfoParser : Option Component := none
  maxSessionConnections : Nat := 0
  warnLog : Option Component := none
  errorLog : Option Component := none
  readTimeout : Int := 0
  subProtocolName : Bytes := []
  messageBufferSize : UInt32 := 0
  deriving DecidableEq, Repr

/-- `time.Second` in nanoseconds. serverOptions.go:66-67. -/
abbrev second : Int := 1000000000

/-- serverOptions.go:52-56: the session manager after the default was filled in. -/
def defaultManager (mkManager : Go Unit) (sessions : OptionValue) (manager : Option Component) :
    Go (Option Component) :=
  if sessions = Enabled ∧ manager = none then do
    mkManager
    return some .dflt
  else return manager

/-- serverOptions.go:46-99 `Prepare`: the mutated options and the error. `mkManager` is the outcome of
`NewDefaultSessionManager("")` (defaultSessionManager.go:52-91), which creates the session directory and
panics if it cannot; only whether it returns is modelled here. -/
def ServerOptions.prepare (mkManager : Go Unit) (op : ServerOptions) : Go (ServerOptions × Option Err) := do
  -- lines 48-50
  let op := { op with sessions := if op.sessions = OptionUnset then Enabled else op.sessions }
  -- lines 52-56
  let manager ← defaultManager mkManager op.sessions op.sessionManager
  let op := { op with sessionManager := manager }
  -- lines 58-60
  let op := { op with sessionKeyGenerator :=
    if op.sessions = Enabled ∧ op.sessionKeyGenerator = none then some .dflt else op.sessionKeyGenerator }
  -- lines 62-64
  let op := { op with sessionInfoParser := if op.sessionInfoParser = none then some .dflt else op.sessionInfoParser }
  -- lines 66-68
  let op := { op with readTimeout := if op.readTimeout < 1 * second then 60 * second else op.readTimeout }
  -- lines 71-77
  let op := { op with warnLog := if op.warnLog = none then some .dflt else op.warnLog }
  -- lines 78-84
  let op := { op with errorLog := if op.errorLog = none then some .dflt else op.errorLog }
  -- lines 86-98
  if op.messageBufferSize = 0 then return ({ op with messageBufferSize := 8192 }, none)
  else if op.messageBufferSize < 32 then return (op, some "message buffer size too small")
  else return (op, none)

/-- What `NewServer` (newServer.go:13-95) sets up before the transport is initialised: the prepared options,
whether sessions are enabled, and the configuration message. -/
structure ServerSetup where
  options : ServerOptions
  sessionsEnabled : Bool
  configMsg : Bytes
  deriving DecidableEq, Repr

/-- newServer.go:13-73 `NewServer` without `transport.Initialize` (lines 87-94); the nil checks of lines 18-24
are the two flags. -/
def newServer (mkManager : Go Unit) (hasImpl hasTransport : Bool) (opts : ServerOptions) :
    Go (Except Err ServerSetup) := do
  if !hasImpl then return .error "missing server implementation"
  if !hasTransport then return .error "missing transport layer implementation"
  let (opts, err) ← opts.prepare mkManager
  match err with
  | some e => return .error e
  | none =>
    let on := decide (opts.sessions = Enabled)
    let conf : ConfInput :=
      { major := 2, minor := 0, readTimeout := opts.readTimeout,
        messageBufferSize := opts.messageBufferSize, subProtocolName := opts.subProtocolName }
    match newAcceptConfMessage conf with
    | .error e => return .error ("couldn't initialize server configuration-push message: " ++ e)
    | .ok msg => return .ok { options := opts, sessionsEnabled := on, configMsg := msg }

end Webwire
