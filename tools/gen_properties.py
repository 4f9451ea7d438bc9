#!/usr/bin/env python3
"""Writes /verif/properties.jsonl (run after editing the list below)."""
import json, os
P = []
def p(title, statement, quantifier, why, anchors):
    P.append(dict(id="C%02d" % (len(P) + 1), title=title, statement=statement,
                  quantifier=quantifier, why_tests_cant=why, anchors=anchors))

# ---------------------------------------------------------------- wire protocol
p("Request messages round-trip",
  "Whatever request WriteMsgRequest accepts (8-byte identifier, name of at most 255 bytes, payload, encoding), the bytes it flushes are parsed by Message.ReadBytes (with a large enough buffer) without error and yield exactly the same identifier, name, payload and encoding.",
  "all identifiers, all names of 0..255 bytes, all payloads of any length, the three encodings, both safe-mode settings",
  "the input space is infinite; name parity, emptiness and padding interact",
  ["message/writeMsgRequest.go:WriteMsgRequest", "message/parseRequest.go:parseRequest", "message/parseRequestUtf16.go:parseRequestUtf16", "message/parse.go:parse"])
p("Signal messages round-trip",
  "Whatever signal Connection.Signal / WriteMsgSignal accepts and flushes is parsed by the receiver without error and yields exactly the same name, payload and encoding.",
  "all names of 0..255 bytes, all payloads, the three encodings, not both empty",
  "the input space is infinite; corner cases of emptiness and UTF16 padding",
  ["message/writeMsgSignal.go:WriteMsgSignal", "message/parseSignal.go:parseSignal", "message/parseSignalUtf16.go:parseSignalUtf16", "connection.go:Signal"])
p("Reply messages round-trip",
  "Whatever reply WriteMsgReply accepts and flushes, including an empty one, is parsed by the client without error and yields exactly the same request identifier, payload and encoding.",
  "all identifiers, all payloads, the three encodings",
  "infinite input space",
  ["message/writeMsgReply.go:WriteMsgReply", "message/parseReply.go:parseReply", "message/parseReplyUtf16.go:parseReplyUtf16"])
p("Error replies round-trip",
  "Whatever error code and message WriteMsgReplyError accepts in safe mode is parsed by the client to the same identifier, the same code (as name) and the same message, and the message is reported as a UTF8 payload.",
  "all identifiers, all accepted codes, all messages",
  "infinite input space",
  ["message/writeMsgErrorReply.go:WriteMsgReplyError", "message/parseErrorReply.go:parseErrorReply", "message/parse.go:parse"])
p("Control messages round-trip",
  "Special replies, session-restore and session-close requests, session-created and session-closed notifications and heartbeats are parsed back to the same type, identifier and payload they were written with.",
  "all identifiers, all nonempty session keys / session objects, all special reply types",
  "infinite input space",
  ["message/writeMsgSpecialRequestReply.go", "message/writeMsgNamelessRequest.go", "message/writeMsgSessionCreated.go", "message/writeMsgSessionClosed.go", "message/writeMsgHeartbeat.go", "message/parseSpecialReplyMessage.go", "message/parseRestoreSession.go", "message/parseCloseSession.go"])
p("Server configuration handshake round-trips",
  "NewAcceptConfMessage fails exactly when the read timeout in whole milliseconds is negative or exceeds 2^32-1; otherwise the client parses back the same protocol version, message buffer size and sub-protocol name and the read timeout rounded down to whole milliseconds.",
  "all protocol versions, all read timeouts (nanoseconds, including negative ones), all buffer sizes, all sub-protocol names",
  "boundary arithmetic over 64-bit durations and 32-bit fields",
  ["message/newAcceptConfMessage.go:NewAcceptConfMessage", "message/parseAcceptConf.go:parseAcceptConf"])
p("Parsing never panics",
  "Parsing any received byte sequence never causes an out-of-range access or any other panic, whatever the message object held before.",
  "all byte sequences, all buffer sizes, all prior contents of the message object",
  "a fuzzer samples the adversary's inputs; the claim is for every input",
  ["message/read.go:ReadBytes", "message/parse.go:parse", "message/parse*.go"])
p("A parsed message exposes only bytes of that message",
  "After a successful parse, identifier, name, payload and sub-protocol name are contiguous pieces of the received bytes: stale bytes that earlier messages left in the reused buffer are never visible.",
  "all byte sequences, all prior buffer contents",
  "Go reslicing is bounded by capacity, not length, so leaking stale bytes would not panic and tests would not notice",
  ["message/read.go:ReadBytes", "message/buffer.go:Data", "message/parse*.go"])
p("The parser accepts exactly the protocol grammar",
  "A byte sequence that fits the buffer is accepted if and only if it has the shape the protocol documentation prescribes for its type byte, and then name/payload/identifier are the documented fields; every unknown type byte is rejected.",
  "all byte sequences",
  "iff over an infinite language",
  ["message/message.go", "message/parse.go:parse", "message/parse*.go"])
p("Writers reject exactly the invalid inputs and never emit part of a rejected message",
  "WriteMsgRequest/WriteMsgSignal/WriteMsgReply/WriteMsgReplyError fail validation exactly for the documented invalid inputs (oversized name, missing name and payload, odd UTF16 payload, unprintable character in safe mode, empty code); in that case no byte is written to the writer and the writer is closed exactly once.",
  "all inputs, all writer implementations",
  "quantifies over all inputs and all writers",
  ["message/writeMsgRequest.go", "message/writeMsgSignal.go", "message/writeMsgReply.go", "message/writeMsgErrorReply.go"])
p("Every writer call closes its writer exactly once",
  "Each WriteMsg* call that returns closes the writer it was given exactly once, on success, validation failure and write failure alike, and performs no write after a failed write.",
  "all inputs, all writers with arbitrary write/close failures at any point",
  "failure can occur at any of the write calls",
  ["message/writeMsg*.go"])
p("The announced message length is exact",
  "CalcMsgLenSignal and CalcMsgLenRequest return exactly the number of bytes the corresponding writer emits, so Connection.Signal returns ErrBufferOverflow exactly for the signals that do not fit the message buffer.",
  "all names, encodings and payloads",
  "an arithmetic identity over all lengths, including 32-bit truncation",
  ["message/calcMsgLen.go", "connection.go:Signal"])
p("Distinct messages never share a byte representation",
  "Two accepted requests (or signals, replies, error replies) that differ in identifier, name, payload or encoding are written as different byte sequences, and messages of different kinds never share bytes.",
  "all pairs of accepted messages",
  "quantifies over pairs from an infinite set",
  ["message/writeMsg*.go"])
p("Streamed reading is chunking-independent and bounded",
  "Message.Read on a reader yields the same message however the reader splits the bytes over Read calls, and a byte stream longer than the message buffer is always rejected. An error of the reader is passed on and leaves the message empty.",
  "all byte streams, all ways to split them, all buffer sizes, readers that return data together with io.EOF or an error",
  "all chunkings of all streams",
  ["message/buffer.go:Read", "message/read.go:Read"])
p("Pooled message objects never leak earlier messages",
  "A message obtained from the message pool carries no identifier, name, payload or type of an earlier message, and parsing into it gives the same result as parsing into a newly allocated message.",
  "all histories of Get / read / Close over any number of pooled messages",
  "quantifies over all histories of pool use",
  ["message/syncPool.go", "message/message.go:Close", "message/newMessage.go", "message/read.go"])
p("A pooled message is never handed out twice at once",
  "As long as each holder closes its message and stops using it, no message object is held by two holders at once; closing a closed message has no effect, and reading a closed message panics instead of returning foreign data.",
  "all histories of Get / Close",
  "history property",
  ["message/syncPool.go", "message/message.go:Close", "message/message.go:Name"])
p("PayloadUtf8 converts UTF16 to UTF8 correctly",
  "For a UTF16 payload PayloadUtf8 returns the UTF8 encoding of the same text (fails exactly for odd-length payloads); binary and UTF8 payloads pass through unchanged.",
  "all UTF16 texts, including characters outside the basic multilingual plane",
  "more than a million code points and all their sequences",
  ["payload/payload.go:Utf8", "message/message.go:PayloadUtf8"])
# ---------------------------------------------------------------- server set-up
p("Server options are normalised safely",
  "ServerOptions.Prepare either fails (exactly when 0 < MessageBufferSize < 32) or yields options with sessions explicitly on or off, a session manager and key generator when sessions are on, a parser, loggers, a read timeout of at least one second and a buffer of at least 32 bytes; explicit valid settings are kept and a second Prepare changes nothing. NewServer then succeeds exactly if the read timeout is less than 2^32 milliseconds, with sessions enabled unless they were disabled, and the transport is initialised with the completed options.",
  "all option values",
  "all combinations of options",
  ["serverOptions.go:Prepare"])
p("The first message on an accepted connection is the server's configuration",
  "The first message a client receives is the configuration message: version 2.0, the server's read timeout and buffer size and sub-protocol name; handlers and hooks run only after it was sent, and if it cannot be sent the connection is closed and OnClientConnected is not called.",
  "all option values, all schedules",
  "all option values; ordering over all executions",
  ["newServer.go:NewServer", "handleConnection.go:handleConnection", "handleConnection.go:writeConfMessage"])
# ---------------------------------------------------------------- dispatch and replies
p("Every received message is dispatched to the right hook",
  "A signal reaches OnSignal once, a request reaches OnRequest once, with exactly the received name, payload and encoding; heartbeats, replies and notifications sent by a client reach no hook and produce no reply. User code is run in no other way than by the calls of hooks these statements speak of.",
  "all received byte sequences",
  "all inputs",
  ["handleMessage.go:handleMessage", "handleRequest.go", "handleSignal.go"])
p("A malformed message closes the connection and reaches no hook",
  "If a client sends bytes that are not a valid message, no request/signal hook runs for it, the connection is closed (once its running handlers are done) and OnClientDisconnected is called exactly once.",
  "all malformed byte sequences at any point of any execution",
  "all inputs and histories",
  ["handleConnection.go:handleConnection", "message/parse.go"])
p("Every request is answered exactly once",
  "Every request (and session restore/close request) the server receives on an open connection is answered by exactly one reply carrying the request's identifier; signals are never answered.",
  "all request contents, all handler results, all schedules",
  "all inputs, handler results and interleavings",
  ["handleRequest.go", "fulfillMsg.go", "failMsg.go", "handleSessionRestore.go", "handleSessionClosure.go", "registerHandler.go"])
p("Handler results map to the documented reply types",
  "A nil error yields a reply with the handler's payload and encoding; ErrRequest (by value or pointer) yields an error reply with its code and message; any other error yields an internal-error reply.",
  "all handler results",
  "all handler results",
  ["handleRequest.go", "failMsg.go", "fulfillMsg.go"])
p("Internal errors leak nothing",
  "When a handler returns an error that is not an ErrRequest, the bytes sent to the client depend only on the request identifier, not on the error.",
  "all pairs of internal errors",
  "a noninterference statement over pairs of runs",
  ["handleRequest.go", "failMsg.go"])
p("At most ConcurrencyLimit handlers run at once",
  "On a connection with ConcurrencyLimit n > 1 never more than n handlers run at the same time, and with limit 0 or 1 never more than one; the limit of a connection is the one it was accepted with.",
  "all schedules, all message sequences, any number of connections",
  "all interleavings",
  ["registerHandler.go", "deregisterHandler.go", "handleMessage.go", "connectionOptions.go"])
p("Serial connections process messages in arrival order",
  "With ConcurrencyLimit 0 or 1 the handlers of a connection run one after the other in the order the messages arrived, each finishing (reply included) before the next starts.",
  "all schedules, all message sequences",
  "all interleavings",
  ["handleMessage.go", "handleConnection.go"])
p("Graceful shutdown waits for all running handlers",
  "Server.Shutdown does not close the transport or return while a handler that started before is still running, and it does return once all of them finished.",
  "all schedules, any number of connections and handlers, messages of any type arriving at any time",
  "all interleavings",
  ["server.go:Shutdown", "registerHandler.go", "deregisterHandler.go"])
p("During shutdown requests are refused and signals ignored",
  "After Shutdown was called no new OnRequest or OnSignal call starts; a request arriving then is answered with the shutdown reply.",
  "all schedules",
  "all interleavings",
  ["registerHandler.go", "failMsg.go:failMsgShutdown", "README.md", "interfaces.go:Shutdown"])
p("Refusing requests during shutdown does not exhaust handler slots or crash the server",
  "Refusing a request because of shutdown releases every resource the server took for it and never panics, whatever the state of the socket.",
  "all schedules, all numbers of refused requests",
  "all interleavings and socket failures",
  ["registerHandler.go", "failMsg.go:failMsgShutdown", "deregisterHandler.go"])
p("Connection.Close is deferred until the connection is idle",
  "Connection.Close closes the socket only when no handler is running on the connection; after Close no new handler starts; when the last handler finishes the socket is closed; further Close calls do nothing.",
  "all schedules of Close and message handling",
  "all interleavings",
  ["connection.go:Close", "connection.go:registerTask", "connection.go:deregisterTask", "registerHandler.go"])
p("Every received message buffer is released exactly once",
  "On every path through message handling the pooled message is closed exactly once, after the hook has returned and the reply was written.",
  "all message types, all handler results, all schedules",
  "all paths and interleavings",
  ["handleMessage.go", "handleRequest.go", "handleSignal.go", "handleSessionRestore.go", "handleSessionClosure.go", "handleConnection.go"])
# ---------------------------------------------------------------- sessions
p("CreateSession is all-or-nothing",
  "If CreateSession fails, the connection's session and the active-session counts are unchanged; if it succeeds the client was notified of exactly the new key and the connection holds that session and is counted under that key.",
  "all histories of session operations, all notification failures",
  "all histories",
  ["connection.go:CreateSession", "connection.go:notifySessionCreated", "sessionRegistry.go:register"])
p("CreateSession never replaces an active session",
  "While a connection has a session, CreateSession fails and leaves that session in place.",
  "all histories",
  "all histories",
  ["connection.go:CreateSession"])
p("Active-session bookkeeping agrees with the connections",
  "At any quiescent point SessionConnections(key) is exactly the set of open connections whose current session has that key, and ActiveSessionsNum is the number of distinct such keys.",
  "all histories of create / restore / close / disconnect over any number of connections",
  "all histories",
  ["sessionRegistry.go", "connection.go", "handleSessionRestore.go", "handleSessionClosure.go", "server.go"])
p("The session connection limit is never exceeded",
  "With MaxSessionConnections = n > 0 no session ever has more than n registered connections.",
  "all interleavings of session operations",
  "all interleavings",
  ["sessionRegistry.go:register", "handleSessionRestore.go"])
p("Registered sessions always have a connection",
  "SessionConnectionsNum(key) is -1 or at least 1, equals the length of SessionConnections(key), and ActiveSessionsNum counts exactly the keys for which it is not -1.",
  "all interleavings of session operations",
  "all interleavings",
  ["sessionRegistry.go"])
p("Concurrent session restoration is safe",
  "Any number of connections may restore the same session at once: each gets either the session or the max-connections reply and the server does not crash.",
  "all interleavings of restore requests",
  "all interleavings",
  ["handleSessionRestore.go", "sessionRegistry.go"])
p("A session is destroyed exactly when its last connection closes it",
  "OnSessionClosed is called for a key exactly when an explicit session closure (by client request, Connection.CloseSession or Server.CloseSession) removes the last connection of that session; disconnecting never destroys a session. A client's closure request is answered by an empty reply, also if it had no session.",
  "all histories",
  "all histories",
  ["sessionRegistry.go:deregister", "connection.go:CloseSession", "connection.go:unlink", "handleSessionClosure.go"])
p("Server.CloseSession closes the whole session",
  "Server.CloseSession(key) returns (nil, nil, nil) if no connection has that session; otherwise it returns each of its connections once with one error slot each, afterwards none of them has a session, the key is no longer active and OnSessionClosed was called once for it.",
  "all histories, any number of connections, arbitrary notification failures",
  "all histories",
  ["server.go:CloseSession", "connection.go:CloseSession"])
p("With sessions disabled no session can come to exist",
  "If sessions are disabled, CreateSession and CloseSession return ErrSessionsDisabled, restore and close requests get the sessions-disabled reply, no session-manager hook is ever called and no connection ever has a session.",
  "all histories",
  "all histories",
  ["connection.go:CreateSession", "connection.go:CloseSession", "handleSessionRestore.go", "handleSessionClosure.go"])
p("A panicking OnSessionClosed hook does not take the server down",
  "If the OnSessionClosed hook panics, the panic is recovered and logged and the session is deregistered nevertheless.",
  "all histories, all hook behaviours",
  "hook behaviour is arbitrary",
  ["sessionRegistry.go:deregister"])
p("Session restoration gives the documented outcome",
  "A restore request is answered by: the sessions-disabled, max-connections, internal-error (the lookup failed, or the found session cannot be encoded) or session-not-found reply, leaving the connection's session unchanged; or, exactly when the lookup found an encodable session, by a UTF8 reply with the session, after which the connection holds that session.",
  "all keys, all lookup results, all histories",
  "all histories and hook results",
  ["handleSessionRestore.go"])
p("Session objects handed out are isolated copies",
  "Connection.Session and SessionInfo return deep copies: they equal the stored value, and later writes through the copy (or through the original) are not visible through the other.",
  "all nested values built from maps, slices, interfaces, pointers and scalars, all later writes",
  "all heap shapes and all mutations",
  ["genericSessionInfo.go:deepCopy", "genericSessionInfo.go:copyRecursive", "session.go:Clone", "connection.go:Session"])
p("Generated session keys are nonempty, URL-safe and unique per random draw",
  "DefaultSessionKeyGenerator returns 64 URL-safe characters, and different 48-byte random draws give different keys.",
  "all 2^384 random draws",
  "the space is 2^384",
  ["session.go:generateSessionKey", "session.go:NewSession"])
p("The file session manager behaves like a map from keys to sessions",
  "OnSessionLookup(key) finds exactly the sessions created and not yet closed under that key and returns their creation time and info; operations on one key do not affect other keys.",
  "all histories of create / lookup / close over all session keys, including keys sent by clients",
  "all histories, all keys",
  ["defaultSessionManager.go"])
p("The file session manager stays inside its directory",
  "Whatever session key a client sends, the session manager only touches files directly inside its session directory.",
  "all session keys (arbitrary client-supplied bytes)",
  "adversarial strings",
  ["defaultSessionManager.go:filePath", "defaultSessionManager.go:OnSessionLookup", "handleSessionRestore.go"])
p("Session files survive crashes",
  "If the process crashes at any point during a session operation, every other session, and the session as it was before or after the operation, can be restored afterwards.",
  "all crash points of all operations",
  "all crash points",
  ["defaultSessionManager.go:Save", "defaultSessionManager.go:OnSessionLookup"])
p("A closed session cannot be restored",
  "After OnSessionClosed(key) completed, lookups of that key find nothing until the key is created anew, even if lookups run concurrently.",
  "all interleavings of lookup and close",
  "all interleavings",
  ["defaultSessionManager.go:OnSessionLookup", "defaultSessionManager.go:OnSessionClosed"])
# ---------------------------------------------------------------- client-side request manager
p("Pending requests have unique identifiers",
  "No two simultaneously pending requests share an identifier, and identifiers are not reused within 2^64 requests.",
  "all histories and interleavings of Create / Fulfill / Fail / cancel",
  "all interleavings",
  ["requestManager/requestManager.go:Create"])
p("A reply resolves exactly the request it belongs to, once",
  "Fulfill/Fail return true for exactly one call per pending request, deliver to the request with that identifier and no other, and every later call for that identifier returns false.",
  "all interleavings of Create, Fulfill, Fail and AwaitReply",
  "all interleavings",
  ["requestManager/requestManager.go:Fulfill", "requestManager/requestManager.go:Fail", "requestManager/request.go:AwaitReply"])
p("A cancelled request is forgotten",
  "Once AwaitReply returned because of its context, the request is no longer pending and a later Fulfill or Fail for it returns false; deadline and cancellation are reported as ErrDeadlineExceeded and ErrCanceled.",
  "all interleavings",
  "all interleavings",
  ["requestManager/request.go:AwaitReply", "translateContextError.go", "errors.go:IsErrTimeout"])
# ---------------------------------------------------------------- memchan transport
p("memchan delivers messages intact, in order and once",
  "Over a connected memchan socket pair the sequence of messages read is a prefix of the sequence of messages successfully written: no loss before an error, no duplication, no mixing of concurrent writers' bytes.",
  "all interleavings of any number of writers with the reader",
  "all interleavings",
  ["transport/memchan/socket.go", "transport/memchan/buffer.go"])
p("A failed write does not block the socket",
  "After a WriteMsg* call on a memchan socket returned (with or without an error), a later GetWriter on the connected socket does not block forever.",
  "all message contents, including rejected and oversized ones",
  "all inputs and histories",
  ["transport/memchan/buffer.go:Close", "transport/memchan/socket.go:onBufferFlush", "message/writeMsg*.go"])
p("A refused Dial leaves the socket disconnected",
  "If Dial returns an error on a disconnected client socket, the socket is not connected afterwards and may be dialled again.",
  "all reasons for refusal, all histories",
  "all histories",
  ["transport/memchan/socket.go:Dial", "transport/memchan/transport.go:onConnect"])
p("Closing a memchan socket is idempotent, symmetric and never panics",
  "After Close by either side both sides report disconnected, pending and later reads return a closure error, the transport no longer lists the connection, further Close calls do nothing, and no interleaving of Close with readers and writers panics or leaves a goroutine blocked for ever.",
  "all interleavings of Close with reads and writes on both sides",
  "all interleavings",
  ["transport/memchan/socket.go:Close", "transport/memchan/socket.go:Read", "transport/memchan/socket.go:onBufferFlush", "transport/memchan/transport.go:onDisconnect"])
p("Transport shutdown closes every connection and refuses new ones",
  "After Transport.Shutdown returned every registered connection is closed, Serve returns, and a later Dial fails.",
  "all sets of connections, all histories",
  "all histories",
  ["transport/memchan/transport.go"])
p("Handler slots are handed out within the limit and in FIFO order",
  "The weighted semaphore never lets the acquired weight exceed its size, admits waiters in arrival order, and wakes the first waiter as soon as its weight is free.",
  "all interleavings of Acquire, cancellation and Release with any weights",
  "all interleavings",
  ["vendor/golang.org/x/sync/semaphore/semaphore.go"])
p("End-to-end request/reply",
  "If a client sends a request through the wire format and the handler's result can be encoded within the buffers, the client's pending request with that identifier, and no other, is resolved with exactly the handler's payload and encoding (or its error code and message).",
  "all requests, all handler results, any set of other pending requests",
  "composition over all inputs",
  ["requestManager", "message", "handleRequest.go", "fulfillMsg.go", "failMsg.go"])
# ---------------------------------------------------------------- appended while modelling
p("No client input stops the server",
  "Whatever byte sequences a client sends, in whatever order, a server whose hooks and sockets return normally, that is not shutting down and whose handler slots are not exhausted processes them without panicking or blocking.",
  "all finite sequences of received byte strings and read errors, all server states with a free slot",
  "inputs are unbounded; tests try a few malformed messages",
  ["handleConnection.go:handleConnection", "handleMessage.go:handleMessage", "message/parse.go"])
p("A request handler may close the message it was given",
  "Message.Close is exported on the interface given to OnRequest; calling it inside the hook does not change the reply the client receives.",
  "all requests, all handler results",
  "all inputs; no test closes the message inside a hook",
  ["handleRequest.go:handleRequest", "message/message.go:Close", "failMsg.go:failMsg"])
p("A server that NewServer returned can accept clients",
  "If NewServer returns a server without an error, the configuration message it sends to every new connection fits the message buffers the server itself chose, so a connected client is accepted.",
  "all server options",
  "all options; tests use short sub-protocol names",
  ["newServer.go:NewServer", "serverOptions.go:Prepare", "handleConnection.go:writeConfMessage", "message/newAcceptConfMessage.go"])
p("Concurrent lookups of a stored session all find it",
  "Any number of overlapping OnSessionLookup calls of the file session manager for a stored session find it, and it stays readable.",
  "all interleavings of lookups at system call granularity", "all interleavings",
  ["defaultSessionManager.go:OnSessionLookup", "defaultSessionManager.go:Save"])
p("Registry and sessions agree when operations on different connections overlap",
  "When no session operation is running on a connection, it is registered for exactly the session it has (Server.SessionConnections and Connection.SessionKey agree), no matter how creations, restorations, closures and disconnections overlapped before; no session without connections stays active.",
  "all interleavings of session operations", "all interleavings",
  ["sessionRegistry.go", "connection.go:CreateSession", "connection.go:CloseSession", "connection.go:unlink", "handleSessionClosure.go", "handleSessionRestore.go"])
p("Session operations on the same connection may overlap",
  "CreateSession, CloseSession, Server.CloseSession, session requests of the client and disconnection may overlap on the same connection without crashing the server.",
  "all interleavings of session operations", "all interleavings; needs a schedule hitting a gap of a few instructions",
  ["sessionRegistry.go:deregister", "connection.go:CreateSession", "connection.go:CloseSession", "server.go:CloseSession"])
p("Session operations never deadlock",
  "Any set of overlapping session operations (create, restore, close by client, connection or server, disconnect) comes to an end if the hooks return: no execution is endless and no operation waits for ever for a lock.",
  "all interleavings of session operations", "all interleavings; deadlock freedom is a property of all schedules",
  ["sessionRegistry.go", "connection.go", "server.go:CloseSession", "handleSessionClosure.go", "handleSessionRestore.go"])
p("OnClientDisconnected is the last call for a connection",
  "OnClientDisconnected is called exactly once for every accepted connection whose reading fails, never twice and never for another one, before the connection is unlinked (as its documentation says); nothing is received on the connection afterwards, and no OnRequest or OnSignal call of the connection is running then or starts later.",
  "all interleavings of connections, handlers, Close and Shutdown", "all interleavings; tests observe one disconnection at a time without running handlers",
  ["handleConnection.go:handleConnection", "connection.go:Close", "interfaces.go:OnClientDisconnected"])
p("SessionInfoToVarMap returns an isolated copy",
  "SessionInfoToVarMap returns a map with exactly the fields of the session information and deeply equal values; changing the map returned does not change the information, nor the other way round; nil gives nil.",
  "all session information, all programs using the result", "all values and all later mutations; the test tries one value and one mutation",
  ["sessionInfoToVarMap.go:SessionInfoToVarMap", "genericSessionInfo.go:Fields", "genericSessionInfo.go:Value"])
p("PendingRequests and IsPending are accurate",
  "IsPending is true exactly for the identifiers of requests that were created and neither answered nor given up, PendingRequests is their number, and nothing is left in the table when all requests were answered or given up.",
  "all interleavings of Create, Fulfill, Fail and AwaitReply", "all interleavings; the test is sequential",
  ["requestManager/requestManager.go:PendingRequests", "requestManager/requestManager.go:IsPending", "requestManager/requestManager.go:deregister"])
p("A reply accepted by Fulfill is received",
  "If Fulfill or Fail returns true then the reply or error is what AwaitReply of the request returns: it is neither lost nor returned twice, and AwaitReply does not report a cancellation instead.",
  "all interleavings of Create, Fulfill, Fail and AwaitReply", "all interleavings; needs a cancellation between two steps of Fulfill",
  ["requestManager/requestManager.go:Fulfill", "requestManager/requestManager.go:Fail", "requestManager/request.go:AwaitReply"])
p("Messages of different requests do not mix",
  "While a handler runs, the message its hook was given holds what was received for it: no other goroutine reads into, closes or hands out the same message object, whatever hooks do with the messages they are given (Close is exported to them).",
  "all interleavings of any number of connections, readers and handlers", "all interleavings and all pool behaviours; sync.Pool reuse is not deterministic",
  ["handleConnection.go:handleConnection", "handleMessage.go:handleMessage", "handleRequest.go:handleRequest", "message/message.go:Close", "message/syncPool.go", "interfaces.go:Message"])
p("Closing a connection is graceful",
  "Connection.Close blocks until all work on the connection is done, and requests coming in on a connection that is being closed are rejected with a reply, as during shutdown (README, Graceful Shutdown).",
  "all interleavings of connections, handlers, Close and Shutdown", "all interleavings",
  ["connection.go:Close", "registerHandler.go:registerHandler", "README.md"])
p("Hooks may call back into the API without deadlock",
  "Whatever methods of Connection and Server the hooks and other goroutines call (apart from waiting for the end of a shutdown), no goroutine of the server gets into a deadlock over the server's locks.",
  "all interleavings of any number of goroutines, all calls made by hooks", "all interleavings, all nestings of hooks and API calls; tests call few methods inside hooks",
  ["connection.go", "sessionRegistry.go:deregister", "server.go:CloseSession", "registerHandler.go", "deregisterHandler.go", "handleSessionRestore.go", "handleSessionClosure.go", "interfaces.go"])
p("A read fails with a deadline error only after its deadline",
  "Socket.Read of the in-memory transport reports ErrDeadlineExceeded (and disconnects) only if its own deadline has passed without a message; a message that arrived in time is read; a read never hangs past its deadline; so a client that sends heartbeats often enough is not disconnected.",
  "all sequences of reads, arrivals, timer expiries and passing of time", "depends on the instant a timer fires relative to a select; needs a stale tick from an earlier read",
  ["transport/memchan/socket.go:Read", "transport/memchan/socket.go:readWithDeadline", "handleConnection.go:handleConnection"])
p("What a handler sends arrives before its reply",
  "Signals and session announcements a request handler sends to its client reach the client before the reply, in the order of the calls, and nothing of the handler's arrives after it.",
  "all handlers, all sequences of API calls they make, all requests", "all handlers and all sequences of calls; tests check few combinations",
  ["handleRequest.go:handleRequest", "connection.go:Signal", "connection.go:CreateSession", "fulfillMsg.go:fulfillMsg", "failMsg.go:failMsg"])
p("Pipelined requests each get their own answer",
  "Any number of requests sent on one connection before any of them is answered get one reply each, in order; in whatever order the client takes the replies, every request is resolved with what the handler returned for it and for no other, and other pending requests are not affected.",
  "all numbers of requests, all names and payloads, all handlers, all orders in which replies are taken", "unbounded number of requests, all orders",
  ["handleConnection.go:handleConnection", "handleRequest.go:handleRequest", "requestManager/requestManager.go:Fulfill", "requestManager/requestManager.go:Fail", "message/writeMsgRequest.go:WriteMsgRequest", "message/parse.go"])

p("A connection is cleaned up exactly once",
  "For an accepted connection OnClientConnected is called once. Whatever the client sends, whatever the hooks do (also calling Close any number of times), and also during shutdown, the socket is closed exactly once if the connection ends and not at all while it is open, no handler stays registered, and a closed connection has no session. If the client ends the connection (read error, malformed or oversized bytes) OnClientDisconnected is called exactly once, otherwise not at all. A connection that could not be sent its configuration is closed at once and no hook hears of it.",
  "all inputs, all hooks and sequences of API calls they make, all socket behaviours", "all inputs and all places where hooks may call Close; tests use a few",
  ["handleConnection.go:handleConnection", "connection.go:Close", "connection.go:unlink", "connection.go:deregisterTask", "deregisterHandler.go"])
p("Clients do not affect each other",
  "Whatever one client sends, and however its connection ends, the server only works on that client's socket and connection: other clients receive nothing, are not disconnected and keep their sessions and handler slots, unless the hooks called for the client call methods of other connections or of the server.",
  "all inputs of a client, all hooks, all socket behaviours", "all inputs; a test only checks the other clients it has connected",
  ["handleConnection.go:handleConnection", "handleMessage.go:handleMessage", "connection.go", "fulfillMsg.go", "failMsg.go"])
p("Clients are told when their session is closed",
  "Connection.CloseSession sends the client one session-closed notification (an error is returned if it is gone) and nothing to anybody else; Server.CloseSession sends one to every connected client that has the session and nothing to anybody else.",
  "all histories, sessions with any number of connections, all orders of closing them", "all histories and all numbers of connections",
  ["connection.go:CloseSession", "server.go:CloseSession", "message/writeMsgSessionClosed.go", "sessionRegistry.go:sessionConnections"])
p("Sessions are destroyed only by closing them, and not while in use",
  "While operations on sessions of any number of connections overlap: OnSessionClosed is never called as long as nobody closes a session (connections that merely end do not destroy sessions); it is called at most once each time the session was given to a connection; a session that connections closed and none has any more was destroyed; and it is not destroyed while a connection has it.",
  "all interleavings of restorations, creations, closures and disconnections on any number of connections", "all interleavings; the window between leaving the registry and OnSessionClosed is a few instructions",
  ["sessionRegistry.go:deregister", "handleSessionRestore.go:handleSessionRestore", "handleSessionClosure.go:handleSessionClosure", "connection.go:CloseSession", "connection.go:CreateSession", "connection.go:unlink"])
p("Panics user code recovers from leave nothing locked",
  "If code supplied by the user (a key generator, session information, a hook) panics inside a call of the API and user code that made the call recovers, the server goes on as before: no lock stays held, the connection can still be used, and it is cleaned up when the client leaves.",
  "all interleavings of any number of goroutines, all places where user code panics or recovers, all nestings of calls", "all places where a hook may panic and all calls made afterwards; the effect is a goroutine that hangs much later",
  ["connection.go:CreateSession", "connection.go:Session", "connection.go:SessionInfo", "connection.go:unlink", "session.go:NewSession", "sessionRegistry.go:deregister"])
p("OnSessionCreated can retrieve the session it is called for",
  "As interfaces.go says: when CreateSession calls OnSessionCreated, Connection.Session of the connection it is given returns the session just created and SessionKey its key, so that the session manager saves the right session under the right key, whatever other goroutines do with the connection at the same time.",
  "all interleavings of creations, restorations, closures and disconnections on any number of connections", "the window between unlocking and the hook is a few instructions; all interleavings",
  ["interfaces.go:SessionManager", "connection.go:CreateSession", "connection.go:Session", "connection.go:SessionKey", "defaultSessionManager.go:OnSessionCreated"])
p("A client can restore the session it was told about",
  "With a session manager that saves what it is told about and finds what it saved, a request to restore a session whose key a client has received in a session-created notification is never answered with 'session not found', unless the session was closed before.",
  "all interleavings, any number of connections and sessions", "depends on how quickly the client reacts to a notification; all interleavings",
  ["connection.go:CreateSession", "connection.go:notifySessionCreated", "handleSessionRestore.go:handleSessionRestore", "interfaces.go:SessionManager"])
p("A closed session is gone",
  "With a session manager that saves, finds and removes what it is told to, and keys that are generated once: a session for which OnSessionClosed was called is not restored by anybody afterwards; when nothing is going on, the sessions saved are exactly those clients were told about and that were not closed.",
  "all interleavings, any number of connections and sessions", "all interleavings; the effect shows only when somebody restores the session much later",
  ["connection.go:CreateSession", "connection.go:CloseSession", "handleSessionClosure.go:handleSessionClosure", "handleSessionRestore.go:handleSessionRestore", "sessionRegistry.go:deregister", "interfaces.go:SessionManager"])
p("The default session manager's directory can be used",
  "If NewDefaultSessionManager returns (also for a directory that does not exist yet and is created), sessions can be saved in the directory and found there again.",
  "all file systems, directories at any depth, all permissions and umasks, all session keys", "tests run as root, or in directories made by the test; all permissions and file systems",
  ["defaultSessionManager.go:NewDefaultSessionManager", "defaultSessionManager.go:Save", "defaultSessionManager.go:OnSessionLookup"])
p("Session information survives being saved",
  "What the default session manager saved of a session is found by every later lookup: the creation time, the time of the lookup before, and the session information with the same fields and values, so that Connection.SessionInfo returns the same on a connection that restored the session as on the one that created it, however often it is restored.",
  "all session information (arbitrarily nested values of all types), all sequences of lookups", "all values of all types, nested to any depth; tests use a few strings, and integers look the same when printed",
  ["defaultSessionManager.go:OnSessionCreated", "defaultSessionManager.go:OnSessionLookup", "defaultSessionManager.go:sessionFile", "sessionInfoToVarMap.go:SessionInfoToVarMap", "genericSessionInfo.go", "handleSessionRestore.go:handleSessionRestore", "connection.go:SessionInfo"])
p("Clients are told the session as it is",
  "From the session object in a session-created notification, read as JSONEncodedSession, a client gets the session's key, times and information; when it restores the session later it is told the same (apart from the time of the last lookup); and sessions of which a client could be told can be saved.",
  "all session keys, all session information, all sequences of lookups", "all keys and all nested values; tests use generated keys and simple information",
  ["connection.go:notifySessionCreated", "session.go:JSONEncodedSession", "handleSessionRestore.go:handleSessionRestore", "defaultSessionManager.go:OnSessionCreated"])

p("Concurrent use of the API is free of data races",
  "All exported functions of connections, the server and the request manager may be called concurrently (README, Thread Safety): whatever goroutines and hooks call, no two goroutines access the same variable of the server, of a connection, of the session registry or of the request manager at once when one of them writes it.",
  "any number of goroutines, connections and calls, all interleavings, hooks that call back into the API, panics that user code recovers from", "all interleavings; the race detector sees only the ones a test happens to run",
  ["connection.go:connection", "sessionRegistry.go:register", "sessionRegistry.go:deregister", "connection.go:CreateSession", "requestManager/requestManager.go:RequestManager", "isShuttingDown.go:isShuttingDown"])

p("Clients that do not read hold up nobody else",
  "If some connected clients do not read what the server sends them, goroutines that do not send them a message go on: nobody waits, directly or because of a lock held by somebody else, for such a client. CreateSession does not block the calling goroutine (interfaces.go), Server.CloseSession closes the session on all its connections, and Close disconnects such a client.",
  "any number of goroutines, connections and calls, all interleavings, any set of clients that do not read", "all interleavings with any set of clients that stop reading at any time; the clients of the tests always read",
  ["connection.go:CreateSession", "connection.go:notifySessionCreated", "connection.go:Close", "server.go:CloseSession", "connection.go:Signal", "transport/memchan/socket.go:onBufferFlush"])

p("Calls on in-memory connections come to an end",
  "Whatever goroutines do with in-memory connections at the same time, every call of Dial, Read, WriteMsg*, Close and Shutdown comes to an end, with three exceptions: a Read of an open connection without a deadline (and those behind it) waits as long as every message of the other side has been read; a write to an open connection waits as long as nobody reads on the other side (but not once its message has been read); Serve waits until the transport is closed. In particular nobody waits on a closed connection.",
  "any number of goroutines, pairs of sockets and messages, all interleavings", "hanging goroutines need particular interleavings of Close with a Read that has taken a message but not confirmed it; no test closes at that moment",
  ["transport/memchan/socket.go:Read", "transport/memchan/socket.go:onBufferFlush", "transport/memchan/socket.go:Close", "transport/memchan/transport.go:Shutdown"])

p("The server forgets connections that have ended",
  "When a connection has ended (the socket is closed, OnClientDisconnected was called and no goroutine works for it any more), the server keeps nothing of it: it refers to it nowhere, no task is registered and no handler slot is taken. So a server can run for any time, however many connections come and go.",
  "all interleavings, any number of connections", "growth without bound shows only after a long time, and nothing observable through the API changes",
  ["handleConnection.go:handleConnection", "server.go:server", "connection.go:Close", "connection.go:unlink", "deregisterHandler.go:deregisterHandler"])

p("Session operations behave as if executed one after the other",
  "However restorations, CreateSession, closure requests, CloseSession and the ends of connections overlap, their answers and effects are those of some order in which each of them is executed at once, between its beginning and its end: a table of who has which session, which restorations enter (unless the limit is reached), CreateSession enters (unless the connection has a session), closing leaves (the last one destroying the session), and the end of a connection leaves without destroying.",
  "all interleavings of any number of session operations on any number of connections, all limits; in the middle of operations too", "all interleavings; no test can enumerate them, or tell whether an order exists",
  ["sessionRegistry.go:register", "sessionRegistry.go:deregister", "handleSessionRestore.go:handleSessionRestore", "handleSessionClosure.go:handleSessionClosure", "connection.go:CreateSession", "connection.go:CloseSession", "connection.go:unlink"])

p("As many handlers as the limit allows",
  "Before Shutdown, on a connection that is not closed: a request or signal that arrives while fewer handlers than its ConcurrencyLimit run on the connection (with a limit below zero: however many) is given to its handler without any handler, on this or another connection, having to return; a message waits only while the limit is used up; so the limit can be reached, and without a limit any number of handlers can run at the same time.",
  "all histories and interleavings, all limits, any number of connections and handlers", "all interleavings and all limits; handlers that wait for each other show only under load",
  ["handleMessage.go:handleMessage", "registerHandler.go:registerHandler", "deregisterHandler.go:deregisterHandler", "connectionOptions.go:ConnectionOptions"])

p("What a client receives follows the protocol",
  "Whatever clients send and user code does, every message a client receives is well-formed and belongs where it comes: the first one is the server configuration; after that there come signals, session notifications, and replies; each reply bears the identifier of a request of this client that was not answered before, and is of one of the types docs/protocol-sequences.txt lists as answers to such a request.",
  "all conversations of any number of clients sending anything (well-formed or not, of any length) with a server with arbitrary hooks and API calls", "all conversations of all lengths; tests look at the reply they wait for",
  ["docs/protocol-sequences.txt", "handleMessage.go:handleMessage", "handleRequest.go:handleRequest", "handleSessionRestore.go:handleSessionRestore", "handleSessionClosure.go:handleSessionClosure", "fulfillMsg.go:fulfillMsg", "failMsg.go:failMsg", "handleConnection.go:writeConfMessage"])

p("The client knows its session",
  "The session is automatically synchronized (README, Sessions): whenever the server is done with what it was doing, a connected client that draws the documented conclusions from what it received (session-created and session-closed notifications, replies to its requests to restore and close sessions) believes to have exactly the session that its connection has on the server.",
  "all conversations of any number of clients with a server with arbitrary hooks and API calls, executed one after the other, including failing writes and messages that do not fit", "all sequences of session operations by both sides, with all failures in between",
  ["connection.go:CreateSession", "connection.go:CloseSession", "connection.go:notifySessionCreated", "connection.go:notifySessionClosed", "handleSessionRestore.go:handleSessionRestore", "handleSessionClosure.go:handleSessionClosure", "server.go:CloseSession"])

p("The client knows its session although session operations overlap",
  "The session is automatically synchronized (README, Sessions), also when CreateSession, CloseSession, Server.CloseSession, restorations, closure requests and the end of the connection overlap on one connection: whenever none of them is in progress, a client that is still connected believes to have the session that its connection has.",
  "all interleavings of any number of session operations on a connection", "all interleavings; the order of a notification and a change made by another goroutine differs only in rare ones, and no test compares the two sides afterwards",
  ["connection.go:CreateSession", "connection.go:CloseSession", "connection.go:notifySessionClosed", "handleSessionRestore.go:handleSessionRestore", "handleSessionClosure.go:handleSessionClosure", "connection.go:unlink"])

p("The in-memory transport is free of data races",
  "All exported interfaces may be used concurrently (README, Thread Safety): whatever goroutines call on in-memory sockets and their transport (Dial, Read, WriteMsg*, Close, Shutdown, Serve), no two of them access the same variable at once when one of them writes it: the bytes and lengths of outbound buffers, the channels sockets read from, their timers, and the transport's list of connections.",
  "any number of goroutines and socket pairs, all interleavings", "all interleavings; the race detector sees only the executions that happen to be tested, and a Read that is overtaken by Close and Dial is a rare one",
  ["transport/memchan/socket.go:Read", "transport/memchan/socket.go:onBufferFlush", "transport/memchan/socket.go:Dial", "transport/memchan/socket.go:Close", "transport/memchan/buffer.go:Write", "transport/memchan/buffer.go:Close", "transport/memchan/transport.go:Shutdown"])

p("Concurrent requests each get their own answer",
  "Any number of clients have any number of requests in flight, and the server handles them concurrently, so that replies overtake each other. Then whatever AwaitReply returns for a request is what OnRequest returned for the message with this request's identifier, name, payload and encoding, on this connection, or that the server was being shut down and refused it. For a session request it is what became of restoring the session with the key of this request (the session, or the error documented for the failure), the confirmation that the session was closed, or that sessions are disabled. Handlers run at most once per request, at most one reply is sent and delivered, and telling the request manager never blocks the client. Once nothing is under way any more on a connection that is still open, every request sent has its answer or was given up by its caller.",
  "all interleavings of any number of clients, requests, handlers and server goroutines, including Shutdown and Close at any time; all contents, all results of handlers that do not close their message; fewer than 2^64 requests per client; for the last sentence messages fit the buffers and results can be sent",
  "all interleavings of both sides; a mixed-up reply needs a rare schedule, and the absence of lost replies cannot be observed by waiting",
  ["requestManager/requestManager.go:Create", "requestManager/requestManager.go:Fulfill", "requestManager/request.go:AwaitReply", "handleConnection.go:handleConnection", "handleMessage.go:handleMessage", "handleRequest.go:handleRequest", "handleSessionRestore.go:handleSessionRestore", "handleSessionClosure.go:handleSessionClosure", "failMsg.go:failMsg", "failMsg.go:failMsgShutdown", "message/writeMsgRequest.go:WriteMsgRequest", "message/writeMsgNamelessRequest.go:WriteMsgNamelessRequest", "message/parse.go:parse"])

p("Every request is answered in the end",
  "If handlers return, every request sent over a connection that stays open is answered after finitely many steps, whatever happens on other connections: no goroutine of the server or the client waits for ever on the way, neither for a handler slot nor in the request manager, no one goes round in circles, and a call of AwaitReply that waits returns the answer. The connection does stay open unless someone on the side of the server calls Close, reading from its socket fails, or the client sends something that is no message or too long. (Unless messages do not fit the buffers, the result of a handler cannot be sent, or the handler closes its message.)",
  "all states reached by any interleaving of any number of clients, requests and goroutines; all continuations of it, fair to this connection or not, with anything going on elsewhere",
  "a bound on what can still happen and the absence of states in which everybody waits, over all interleavings; tests see one schedule, and a wait that is too long but ends looks the same",
  ["requestManager/requestManager.go:Fulfill", "requestManager/request.go:AwaitReply", "handleConnection.go:handleConnection", "registerHandler.go:registerHandler", "deregisterHandler.go:deregisterHandler", "handleRequest.go:handleRequest"])

p("A lost connection comes to its end",
  "When the socket of a connection is lost (the client vanishes, the read deadline passes, the transport is shut down) and handlers return, the connection ends after finitely many steps, whatever happens on other connections: OnClientDisconnected is called, all its handlers are done, its socket is closed, and no goroutine of it is left.",
  "all states reached by any interleaving of any number of connections and goroutines; all continuations in which reading from this connection fails",
  "the absence of states in which goroutines of the connection wait for ever, and a bound on their steps, over all interleavings; leaked goroutines do not make tests fail",
  ["handleConnection.go:handleConnection", "registerHandler.go:registerHandler", "deregisterHandler.go:deregisterHandler", "connection.go:Close", "connection.go:deregisterTask", "connection.go:unlink"])

p("Transports are exchangeable",
  "The server uses a transport only through the Socket interface: on two transports whose operations (GetWriter, Write, Close, IsConnected, reading) give the same results, the server does the same: it calls the same hooks with the same arguments in the same order, returns the same results, ends up with the same connections and sessions, and makes the same calls on the sockets.",
  "all pairs of transports, all relations between their states that their operations respect, all hooks and options, everything clients send and applications call, executed one after the other", "quantifies over all transports, including those users write themselves",
  ["socket.go:Socket", "transport.go:Transport", "handleConnection.go:handleConnection", "handleMessage.go:handleMessage", "connection.go:connection", "server.go:CloseSession"])

p("OnClientConnected comes first",
  "For every connection the transport hands to the server, the configuration is sent, then OnClientConnected is called, exactly once; until it has returned no message of the connection is received, dropped, refused or handled, and OnClientDisconnected is not called, not even if the connection is closed or the server shut down meanwhile. No hook is called for a connection that was refused or could not be sent its configuration. Other connections do not have to wait for the hook.",
  "all interleavings of any number of new connections with one another and with messages, handlers, Close and Shutdown; hooks that take any time or never return", "interleavings; a message handled too early needs a client that sends at once and a hook that happens to be slow",
  ["handleConnection.go:handleConnection", "interfaces.go:OnClientConnected", "connection.go:newConnection"])

p("No new connections during shutdown",
  "Once Shutdown was called new connections are refused: OnClientConnected is not called any more, and certainly not after Shutdown returned.",
  "all interleavings of any number of new connections with one another and with messages, handlers, Close and Shutdown; any transport that asks isShuttingDown before it accepts a connection", "the window between the transport's question and the beginning of handleConnection is too short for a test to hit",
  ["isShuttingDown.go:isShuttingDown", "transport/memchan/transport.go:onConnect", "handleConnection.go:handleConnection", "server.go:Shutdown", "transport.go:IsShuttingDown"])

p("Every signal is handled in the end",
  "If handlers return, every signal that was received on a connection before Shutdown was called is given to OnSignal after finitely many steps, exactly as often as it was received, whatever happens on other connections: unless the connection was closed before, no signal is lost, none is handled twice, and none waits for a handler slot for ever.",
  "all states reached by any interleaving of any number of connections, messages and goroutines, including Close and Shutdown at any time; all continuations of it",
  "a bound on what can still happen and the absence of states in which a signal waits for ever, over all interleavings; nobody is told that a signal was lost",
  ["handleConnection.go:handleConnection", "handleMessage.go:handleMessage", "handleSignal.go:handleSignal", "registerHandler.go:registerHandler", "deregisterHandler.go:deregisterHandler"])

p("A hook holds up its own client",
  "Hooks are invoked by the goroutine serving the client and block any other interactions with this client while executing (interfaces.go: OnSignal, OnRequest, OnSessionLookup, OnSessionClosed): from the moment the handler of a message starts until it ends, no other message of the connection is received, ignored or refused, no other handler of it starts or ends, and OnClientDisconnected is not called for it.",
  "all interleavings of any number of connections with any concurrency limits, messages, handlers, Close and Shutdown", "all interleavings; an overlap needs a hook that happens to be slow",
  ["interfaces.go:ServerImplementation", "interfaces.go:SessionManager", "handleMessage.go:handleMessage", "handleConnection.go:handleConnection"])

p("In-memory sockets and their references",
  "A client of the in-memory transport without a server gets errors and nothing else: its socket is never connected, Dial says that the server is unreachable, GetWriter and Read say that it is disconnected, Close does nothing. Sockets made as a pair are connected and disconnected together, are each other's remote, and no call on another socket changes whether they are connected. No call on any socket or transport panics, except making sockets of a transport that was not initialised with a buffer size. RemoteAddr returns nil if the socket is not connected (socket.go).",
  "all sequences of calls on any number of sockets and transports, made in any order and also before initialisation and after shutdown", "quantifies over all histories of calls; a nil dereference needs the one history that leaves a reference unset",
  ["transport/memchan/newSocket.go:newDisconnectedSocket", "transport/memchan/entangleSockets.go:entangleSockets", "transport/memchan/newEntangledSockets.go:NewEntangledSockets", "transport/memchan/clientTransport.go:NewSocket", "transport/memchan/socket.go:Socket", "transport/memchan/transport.go:Transport", "socket.go:RemoteAddr"])

p("IsActive",
  "IsActive tells whether a connection is ready to accept incoming messages (interfaces.go): it returns true from the beginning until Close is called or reading from the socket fails, whatever messages come and whatever happens on other connections; once it has returned false it returns false for ever; it returns false when Close has returned and in OnClientDisconnected. While it returns true every message received is given to its handler; when it returns false no handler of the connection starts any more.",
  "all interleavings of any number of connections, messages, handlers, Close and Shutdown", "all interleavings; a wrong answer matters only to code that runs between two steps of other goroutines",
  ["connection.go:IsActive", "interfaces.go:IsActive", "connection.go:Close", "registerHandler.go:registerHandler", "handleConnection.go:handleConnection"])

p("Signals, end to end",
  "Any number of clients send signals, requests and anything else while the server handles messages concurrently. Then OnSignal is called for signals only, at most once for each, with the name, the payload and the encoding the client sent; a signal is never answered nor taken for a request. Once everything has happened on a connection that can be relied on to happen, every signal sent on it that fits the server's buffers was given to OnSignal exactly once, unless the connection was broken or the server was shut down. With ConcurrencyLimit 0 or 1 the handlers of signals and requests are called in the order in which the client sent them.",
  "all interleavings of any number of clients, messages, handlers and server goroutines; all contents of messages",
  "nobody is told that a signal was lost, handled twice or overtaken; all interleavings of clients and server goroutines",
  ["handleSignal.go:handleSignal", "handleMessage.go:handleMessage", "handleConnection.go:handleConnection", "message/parse.go:Parse", "registerHandler.go:registerHandler"])

p("A reply shows what was received until it is closed",
  "Whoever waits for a request with AwaitReply gets a Reply that shows, until it is closed, the payload and the encoding of the message that was received for this request and passed to Fulfill, whatever other goroutines read, fulfil, wait for and close meanwhile. No two replies share a message, and none is in the pool while it is in use. Closing a reply returns its message to the pool; closing it again has no effect on others.",
  "all interleavings of any number of requests, of code that gets messages from the pool, reads into them, passes them to Fulfill or closes them, and of code that waits for replies, reads and closes them; all contents",
  "a mix-up needs a message object to be recycled while a reply still refers to it: all interleavings of request manager and pool",
  ["requestManager/reply.go:reply", "requestManager/request.go:AwaitReply", "requestManager/requestManager.go:Fulfill", "message/syncPool.go:SyncPool", "message/message.go:Close", "interfaces.go:Reply"])

p("Run returns when the server was shut down gracefully",
  "Run blocks until the server is gracefully shut down (interfaces.go): it does not return before Shutdown was called and every handler that had started by then has ended, so a program that ends when Run returns interrupts no handler. Once Shutdown has shut down the transport every call of Run returns, those made before without an error, those made later with one.",
  "all interleavings of any number of calls of Run and Shutdown, connections, messages and handlers",
  "all interleavings; a handler is interrupted only if Run returns at the wrong moment, after which the program is gone",
  ["server.go:Run", "server.go:Shutdown", "transport/memchan/transport.go:Serve", "transport/memchan/transport.go:Shutdown", "deregisterHandler.go:deregisterHandler", "interfaces.go:Server"])

p("The message size a client is told is the one in use",
  "A client learns the size of message buffers from the configuration message. Over every socket of the in-memory transport made for the server, a message can be sent, by client or server, exactly if it is valid and not longer than that size, and then arrives as one piece; and every well-formed message that can be sent can be read into the message objects of the server and into those of a client of the announced size.",
  "all server options, all sequences of NewServer (succeeding or failing), NewSocket and Shutdown on a transport, all messages",
  "tests use one size, and messages far below it; all options, sizes and messages around the limit",
  ["newServer.go:NewServer", "transport/memchan/transport.go:Initialize", "transport/memchan/newSocket.go:newSocket", "transport/memchan/newEntangledSockets.go:NewEntangledSockets", "transport/memchan/buffer.go:Buffer", "message/newAcceptConfMessage.go:NewAcceptConfMessage"])

p("Errors can be printed and told apart",
  "Every error of the exported types can be printed, whatever caused it, and prints as the error at the end of its chain of causes; so can every error the library itself makes. What AwaitReply returns when its context ends is a timeout (IsErrTimeout) exactly if the deadline passed and a cancellation (IsErrCanceled) exactly if the context was cancelled; no error is both.",
  "all errors: any nesting of causes of any exported type, pointers to them and errors of other packages",
  "errors nest without bound; those that cannot be printed crash the program that logs them, so tests see only those somebody thought of",
  ["errors.go", "translateContextError.go:TranslateContextError", "requestManager/request.go:AwaitReply", "README.md"])

if __name__ == "__main__":
    out = os.path.join(os.path.dirname(os.path.abspath(__file__)), "..", "properties.jsonl")
    with open(out, "w") as f:
        for x in P: f.write(json.dumps(x) + "\n")
    print(len(P))
