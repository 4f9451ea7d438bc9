import Verif.Go
import Verif.GoMap
import Verif.Model.Accept
import Verif.Model.BufferCount
import Verif.Model.BufferRead
import Verif.Model.Buffers
import Verif.Model.ConnSignal
import Verif.Model.DeepCopy
import Verif.Model.Errors
import Verif.Model.Lifecycle
import Verif.Model.Locks
import Verif.Model.Memchan
import Verif.Model.MemchanNil
import Verif.Model.MemchanRace
import Verif.Model.Message
import Verif.Model.Options
import Verif.Model.Parse
import Verif.Model.Payload
import Verif.Model.Pool
import Verif.Model.ReadTimer
import Verif.Model.Replies
import Verif.Model.RequestManager
import Verif.Model.Running
import Verif.Model.Semaphore
import Verif.Model.Server
import Verif.Model.SessionDir
import Verif.Model.SessionJson
import Verif.Model.SessionKey
import Verif.Model.SessionRaces
import Verif.Model.SessionStore
import Verif.Model.SessionSync
import Verif.Model.Setup
import Verif.Model.Whole
import Verif.Model.Write
import Verif.Proofs.Accept
import Verif.Proofs.AcceptExec
import Verif.Proofs.Api
import Verif.Proofs.Calls
import Verif.Proofs.Client
import Verif.Proofs.Connection
import Verif.Proofs.DeepCopy
import Verif.Proofs.DeepCopy2
import Verif.Proofs.DeepCopy3
import Verif.Proofs.Dispatch
import Verif.Proofs.Frame
import Verif.Proofs.Grammar
import Verif.Proofs.Handle
import Verif.Proofs.Json
import Verif.Proofs.Lifecycle
import Verif.Proofs.Lifecycle2
import Verif.Proofs.Lifecycle3
import Verif.Proofs.Lifecycle4
import Verif.Proofs.Lifecycle5
import Verif.Proofs.LifecycleExec
import Verif.Proofs.Memchan
import Verif.Proofs.Memchan10
import Verif.Proofs.Memchan11
import Verif.Proofs.Memchan2
import Verif.Proofs.Memchan3
import Verif.Proofs.Memchan4
import Verif.Proofs.Memchan5
import Verif.Proofs.Memchan6
import Verif.Proofs.Memchan7
import Verif.Proofs.Memchan8
import Verif.Proofs.Memchan9
import Verif.Proofs.MemchanLives
import Verif.Proofs.MemchanLives2
import Verif.Proofs.MemchanNil
import Verif.Proofs.Net
import Verif.Proofs.NoPanic
import Verif.Proofs.Parse
import Verif.Proofs.Replies
import Verif.Proofs.Reply
import Verif.Proofs.RequestManager
import Verif.Proofs.RequestManager2
import Verif.Proofs.RequestManager3
import Verif.Proofs.Returns
import Verif.Proofs.Roundtrip
import Verif.Proofs.Semaphore
import Verif.Proofs.Seriatim
import Verif.Proofs.Session
import Verif.Proofs.Session2
import Verif.Proofs.Session3
import Verif.Proofs.SessionFile
import Verif.Proofs.SessionOrder
import Verif.Proofs.SessionRaces
import Verif.Proofs.SessionRaces2
import Verif.Proofs.SessionRaces3
import Verif.Proofs.SessionRaces4
import Verif.Proofs.SessionRaces5
import Verif.Proofs.SessionSeq
import Verif.Proofs.SessionStore
import Verif.Proofs.SessionStore2
import Verif.Proofs.Simulate
import Verif.Proofs.Simulate2
import Verif.Proofs.Talk
import Verif.Proofs.Utf8
import Verif.Proofs.Whole
import Verif.Proofs.Whole2
import Verif.Proofs.Whole3
import Verif.Proofs.Whole4
import Verif.Proofs.Whole5
import Verif.Proofs.Whole6
import Verif.Proofs.Whole7
import Verif.Proofs.WholeExec
import Verif.Proofs.Write
import Verif.Props.Accept
import Verif.Props.Accepting
import Verif.Props.Accounts
import Verif.Props.BufferCount
import Verif.Props.Buffers
import Verif.Props.Client
import Verif.Props.DataRace
import Verif.Props.DeepCopy
import Verif.Props.Dispatch
import Verif.Props.EndToEnd
import Verif.Props.Ending
import Verif.Props.Errors
import Verif.Props.HookCalls
import Verif.Props.Isolation
import Verif.Props.Lifecycle
import Verif.Props.Lifecycle10
import Verif.Props.Lifecycle11
import Verif.Props.Lifecycle12
import Verif.Props.Lifecycle13
import Verif.Props.Lifecycle14
import Verif.Props.Lifecycle15
import Verif.Props.Lifecycle16
import Verif.Props.Lifecycle2
import Verif.Props.Lifecycle3
import Verif.Props.Lifecycle4
import Verif.Props.Lifecycle5
import Verif.Props.Lifecycle6
import Verif.Props.Lifecycle7
import Verif.Props.Lifecycle8
import Verif.Props.Lifecycle9
import Verif.Props.Locks
import Verif.Props.Memchan
import Verif.Props.MemchanEnds
import Verif.Props.MemchanLives
import Verif.Props.MemchanNil
import Verif.Props.MemchanRace
import Verif.Props.MemchanRace2
import Verif.Props.Options
import Verif.Props.Order
import Verif.Props.Payload
import Verif.Props.Pipeline
import Verif.Props.Pool
import Verif.Props.ReadTimer
import Verif.Props.Replies
import Verif.Props.Reply
import Verif.Props.Reply2
import Verif.Props.RequestManager
import Verif.Props.RequestManager2
import Verif.Props.Running
import Verif.Props.Semaphore
import Verif.Props.Seriatim
import Verif.Props.Seriatim2
import Verif.Props.Session
import Verif.Props.Session2
import Verif.Props.SessionDir
import Verif.Props.SessionJson
import Verif.Props.SessionKey
import Verif.Props.SessionOrder
import Verif.Props.SessionRaces
import Verif.Props.SessionRaces2
import Verif.Props.SessionRaces3
import Verif.Props.SessionRaces4
import Verif.Props.SessionSeq
import Verif.Props.SessionStore
import Verif.Props.SessionSync
import Verif.Props.Setup
import Verif.Props.SlowClients
import Verif.Props.Stopping
import Verif.Props.Stream
import Verif.Props.Transport
import Verif.Props.VarMap
import Verif.Props.Whole
import Verif.Props.Whole2
import Verif.Props.Whole3
import Verif.Props.Whole4
import Verif.Props.Whole5
import Verif.Props.Whole6
import Verif.Props.WholeSession
import Verif.Props.Wire
import Verif.Props.Wire2
import Verif.Props.Wire3
import Verif.Spec.Api
import Verif.Spec.Client
import Verif.Spec.DeepCopy
import Verif.Spec.EndToEnd
import Verif.Spec.Lifecycle
import Verif.Spec.Memchan
import Verif.Spec.MemchanNil
import Verif.Spec.Net
import Verif.Spec.Replies
import Verif.Spec.RequestManager
import Verif.Spec.Semaphore
import Verif.Spec.Seriatim
import Verif.Spec.Server
import Verif.Spec.Session
import Verif.Spec.SessionJson
import Verif.Spec.SessionOrder
import Verif.Spec.SessionRaces
import Verif.Spec.SessionStore
import Verif.Spec.Whole
import Verif.Spec.WholeAnswer
import Verif.Spec.Wire
import Verif.Spec.WriterLog
