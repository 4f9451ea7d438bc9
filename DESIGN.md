# Formal model of qbeon/webwire-go in Lean 4

## Method

* The Go code in /repo is read as text and transcribed, function by function, into total computable Lean
  definitions under `lean/Verif/Model/`. Every definition cites the file and lines it models and says what is
  simplified.
* What a property means is written in `lean/Verif/Spec/` without reference to the model's helpers
  (byte layouts, the protocol grammar, abstract maps, text encodings, observers of logs).
* Property theorems live in `lean/Verif/Props/`, one file per area; helper lemmas live in `lean/Verif/Proofs/`.
  Next to each property theorem there is an `example` (or a witness theorem) which shows that a concrete
  non-trivial case satisfies its hypotheses.
* If the unchanged code violates a property, the full statement is kept as a `def Cxx_full : Prop`, its negation is
  proved with a concrete execution (`Cxx_..._violated`), and what does hold is proved under a name ending in
  `_partial`.
* `MANIFEST.json` lists the theorems per property. `seeded/LOG.jsonl` lists the wrong programs the theorems were
  tested against.

Go constructs:

| Go | model |
| --- | --- |
| `[]byte` values | `List UInt8` |
| slices into a message's buffer | `(offset, length)` into that buffer; reslicing is checked against *capacity* as in Go, indexing against length |
| error returns | `Option Err` |
| panic, blocking for ever | `Except Stop` |
| `int`, `int64` | `Nat`/`Int`; `uint32`, `uint64` where wrap-around matters: `UInt32`/`UInt64` or explicit `%` |
| maps | association lists (`GoMap`) or functions; iteration order is an argument |
| interfaces implemented by the user (hooks, writers, readers, session manager) | parameters quantified over in the theorems |
| goroutines, locks, channels | labelled transition systems with one step per lock-protected region, atomic or channel operation; any number of threads, any schedule |
| heap references (C43) | explicit heap of maps, arrays and variables |

## Plan per property

Wire protocol (`Model/Message`, `Parse`, `Write`, `ConnSignal`, `BufferRead`, `Pool`, `Payload`):

* C01-C06 round trips: writers are run on an ideal flushing writer, the flushed bytes equal the layout in
  `Spec/Wire`, and the parser run on a layout returns its fields. C02 and C04 are violated at a point
  (UTF16 signal with a name and no payload; encoding of error replies) and get `_partial` theorems.
* C07/C08 parser run in `Except Stop` with Go's slicing rules; case analysis over the type byte.
* C09 `Spec/Wire` gives the grammar declaratively; parse succeeds iff the grammar holds.
* C10-C13 writers over an arbitrary writer implementation; corollaries of the layout theorems. The overflow check of
  C12 is violated above 4 GiB.
* C14 reader as a list of read results, induction over it. Violated for readers that return data with EOF.
* C15/C16 pool as a state machine, invariant by induction over histories.
* C17 code-unit conversion against an independent Unicode specification. Violated outside the BMP; right exactly for
  texts within it. `C17_any_units_partial` has arbitrary units, surrogates included; `C17_library` shows that the library function the code
  could have called is right for all texts.

Server, sequentially (`Model/Options`, `Model/Server`): each function as a function on a world, with arbitrary
hooks, sockets and socket failures.

* C18, C61 decision logic of the options; C19 handshake; C20-C24 handling of one message and of whole runs of a
  connection; C31 release of messages; C59 nothing a client sends makes the functions panic or block
  (during a shutdown: exactly the inputs of `C59_during_shutdown`); C60 hooks
  closing their message; C100 (and the part of C60 that holds) by a simulation between servers on two networks. C20 and C22 also under all schedules (`Props/Accounts`, over `Model/Lifecycle`): accounts of
  what became of each message.
* C32-C36, C38-C42 sessions: histories of any operations over any number of connections; refinement to "each connection
  has an optional key".
* C93, C94 (`Spec/Client`): conversations of clients with the server, and what a client concludes from what it receives; an
  invariant of all conversations (`talk_inv`) that relates the client's knowledge, the queue of its messages and the server.

Server, concurrently:

* C101, C102 (`Model/Accept`): how connections come about, before the loops of `Model/Lifecycle`; the stages of every
  connection as an invariant, and a refinement: what happens besides is an execution of `Model/Lifecycle`.
* C25-C30, C66, C71, C90, C92, C99, C103, C104, C106 (`Model/Lifecycle`): reader loops, handlers, `Close`, `Shutdown`; invariants over all schedules;
  liveness as "can always go on and every execution of internal steps ends". `Props/Seriatim` relates this model to
  `Model/Server`: every history in which connections come, send messages and go, one thing after the other, is simulated
  by an execution of `Model/Lifecycle` with the same counters, flags, calls of user code and closed sockets.
  `Props/Seriatim2` adds the two ways in which a request stops such a server during a shutdown (`C29_sequential`). Left out
  there: what other panics of `Model/Server` correspond to (those of user code and of `close` of a closed channel).
* C70 (`Model/Buffers`): which goroutine holds which message object; invariant over all schedules.
* C32, C35, C37, C39, C63-C65, C79, C81-C83 (`Model/SessionRaces`): session operations split into critical sections, and what the session
  manager is told and asked. C91 (`Spec/SessionOrder`): refinement of a table changed by atomic operations, with fixed
  linearization points; the table is related to the registry by an invariant of all `Calm` executions.
  `Props/SessionSeq` relates the two models of the session operations: every history of `Model/Server` is simulated by an
  execution of `Model/SessionRaces` with one goroutine at a time.
* C95 (`Model/SessionSync`): the session operations of one connection and the messages to its client; an invariant for the times
  in which sessions are given and one for those in which they are taken away.
* C72, C80 (`Model/Locks`): the locks every function takes and the hooks it calls meanwhile, and panics; an order of the locks is an
  invariant of all goroutines, from which every chain of waiting goroutines ends in one that can go on. C87: the shared
  variables they access; each variable has a lock, that it is held at each access is an invariant, as is mutual exclusion. A
  race is a reachable state in which two goroutines are about to access one variable, which for sequentially consistent
  executions is Go's definition. C88: waiting for clients that do not read; while it waits a goroutine holds only locks of that
  connection, which is part of the same invariant.
* C73 (`Model/ReadTimer`): reads with a deadline, the timer and its channel; invariants over all sequences of events, for both
  kinds of Go timers.
* C57 (`Model/Semaphore`): the vendored weighted semaphore over all histories.

Sessions apart from the server:

* C43, C67 (`Model/DeepCopy`): heap model of `deepCopy`, `Clone`, `SessionInfo`, `SessionInfoToVarMap`. Observational isolation: no program given the
  copy changes anything a program given the original can see.
* C44 (`Model/SessionKey`): base64 and key generation, by induction over the bytes.
* C45-C48, C62 (`Model/SessionStore`): file system with inodes, partial writes and crash points, path cleaning; all
  schedules. C84 (`Model/SessionDir`): directories and permissions; induction over the path.
* C85, C86 (`Model/SessionJson`): Go values, JSON documents, and the translations between them as encoding/json makes them;
  induction over values. Equality is observational (`Spec.Same`: the same found along every path into the values); which
  values survive is characterised exactly.

Client side and transport:

* C90 (`Model/Lifecycle`): the list of connections as part of the state, what it contains by induction over executions; growth by induction on the number of connections.
* C49-C51, C68, C69 (`Model/RequestManager`): all schedules. C52-C56, C89 (`Model/Memchan`): socket pairs, all schedules; pairs
  that are dialled again by an invariant over what happened since the last `Dial`; C89 by what a state nobody can leave looks like,
  and a decreasing measure. C96 (`Model/MemchanRace`): which variables each step accesses; locks are held by one goroutine; `C96_writes` and
  `C96_reads` tie the list of accesses to what the steps change and depend on.
  C105 (`Model/MemchanNil`): sockets, statuses and transports as numbered objects with references that may be nil; an invariant of
  all sequences of calls.
* C58 composition of writer, server, parser and request manager (`Spec/EndToEnd`). C75: the same for any number of requests at once.
* C107 (`Props/Whole4`, over `Model/Whole`): signals of clients; the order by relating the events of the server to what was sent.
* C108 (`Props/Replies`, over `Model/Replies`, which runs `Model/RequestManager` with messages of `Model/Pool` as replies): invariant: the messages in use, wherever they are, are what the pool's history says is held, each once, and each shows the bytes that were read into it. `C108_violated`: `Close` twice.
* C27 (`Props/Lifecycle11`): an execution is paired with the number of signals that got past the check during a shutdown; the count of operations is the number of messages in progress less that number, modulo 2^32, by induction over the steps. From it follows when the server crashes (C29): after `Shutdown` was let go the difference only decreases, so the channel is not closed a second time before 2^32 late signals.
* C30 (`Props/Lifecycle12`): how bad the race of `Close` with a message can get; a potential (sockets closed, goroutines about to close it, messages in progress or on their way) that no step increases once the connection is closed.
* C66 (`Props/Lifecycle13`): handlers that run or start after `OnClientDisconnected` hold handler slots at that moment, and there are no others.
* C109 (`Props/Running`, over `Model/Running`, which adds calls of `Run` and the state of the in-memory transport to `Model/Lifecycle`): the invariants of C27, and that nothing is counted any more once the transport is down.
* C110 (`Props/Setup`, over `Model/Setup`: `NewServer` with the initialisation of the transport, the creation of in-memory sockets and their outbound buffers, byte for byte): the transport's size and the buffers of all sockets are those of the server (invariant over all sequences of calls); what a buffer takes by induction over the parts of a message. `C18_initialize` is about `NewServer` with an arbitrary transport.
* C111 (`Props/Errors`, over `Model/Errors`: the exported error types with their causes, pointers to them, their `Error` methods and the functions that sort them): every chain of causes has one end, by induction over errors, and its text is that of the whole; it can be printed exactly if the chain does not end with nothing or with a foreign error that cannot be printed. The errors the library makes are listed by the lines that make them.
* C97 (`Model/Whole`): any number of clients and the goroutines of the server together, all schedules; the invariants of the parts (C20, C22, C28, C49, C50, C69),
  an account of what each side sent and read, and the round trips (C01, C03-C05) on what is in between. Session requests are included
  (`Props/WholeSession`); that the handlers of `Model/Server` reply as this model has it is proved there too.
* C98 (`Model/Whole`): a measure of what is left to do on a connection, which its steps decrease and others do not increase; by
  cases, what is possible in a state in which the connection's goroutines cannot go on. That the connection stays open is C30 on such
  executions. `C98_shutdown_partial` (`Props/Whole5`) is about shutdowns in which fewer requests of the connection were refused than it
  has slots, by the count of slots of C29; `C107_shutdown_handled` is the same for signals. `C98_all_but_one_partial`: what is left
  otherwise; the message a reader waits with is the last one it read. `C98_few_requests_partial` (`Props/Whole6`): no more
  requests are refused than were sent, and if that is no more than there are slots, a full connection has refused them all. `C92_waits_shutdown` and `C106_ready`
  (`Props/Lifecycle14`) count the refused requests in what C92 and C106 say about executions without a shutdown; `C99_or_full_partial` says what is left of a
  connection that does not end. `C28_refused_at_once` and `C92_signal_starts_shutdown` (`Props/Lifecycle15`): the steps in question, one
  after the other. `C28_refused_le`, `C92_few_requests` and `C99_few_requests_partial` (`Props/Lifecycle16`): the same count for what
  arrived, by the account of C22 for each message.
* C76-C78 (`Model/Server`): invariants over all inputs and hooks. C76: the number of times the socket was closed follows from
  whether the connection is active or has a handler, also while other connections are served (`C76_stays_closed`; with it C34
  for connections that are gone, `C34_listed_active_partial`); C77: closure of socket operations on one connection; C78: what the
  in-memory network delivered.
* C74 trace of what is sent to each connection while a handler runs.

Nothing on the list is inexpressible; what the code violates is proved to be violated.

## What is wrong with the code

Found while proving; each item is a theorem with a concrete execution unless marked (observation).

* C02: `WriteMsgSignal` accepts a UTF16 signal with a name and no payload, the parser refuses it.
* C04: error replies are reported as binary (parse.go:100).
* C12: `Connection.Signal` truncates the length to 32 bits before comparing it.
* C14: `Buffer.Read` accepts bytes that arrive together with EOF on a full buffer, and refuses a zero-byte read there.
* C17: surrogate pairs are converted one half at a time, giving two replacement characters.
* C22: a handler result that cannot be encoded (odd UTF16 payload, empty or unprintable error code) gets no reply at all. On transports with message buffers of a fixed size
  (`transport/memchan`) the same holds for every result that is longer than the buffer (`C22_too_long_violated`): the error of the write is only logged.
* C27, C28: signals are handled during shutdown without being counted, then uncounted: `Shutdown` may return early, never
  return, or the counter wraps.
* C29: a request refused because of shutdown keeps its handler slot; a socket without writer makes the refusal panic.
  A reader waiting for such a slot waits for ever and never reports its client as disconnected (`C29_waits_for_ever`).
* C30: `Close` between the `IsActive` check and `registerTask` closes the socket under a running handler, or twice.
* C32: `CreateSession` ignores the registry's refusal. C34, C38, C39: restoring over an existing session leaves the old
  registry entry behind, even when the client is gone: with a limit on connections the old session cannot be restored any more
  (`haunted`). C78: closing the old session then ends the new one and tells the client so.
* C37: two simultaneous restorations pass the connection limit check, the second panics.
* C41: the recovery from a panicking `OnSessionClosed` dereferences `sessionRegistry.server`, which is never set.
* C43: pointers in session information are shared; cyclic information never returns; nil and NaN keys panic.
* C45, C46: session keys are not checked: `./a` is `a`, `../x` leaves the directory. C47: files are truncated and written in
  place. C48: a lookup rewrites a removed file. C62: overlapping lookups fail or corrupt the file.
* C50: `Fulfill`/`Fail` look up and remove in two critical sections: both of two calls may return true, or one block.
* C52: redialling while an old reader has not copied. C53: a rejected or oversized message keeps the writer locks for ever.
  C54: a refused `Dial` leaves the socket connected. C55: `Close` against a writer past its check panics or hangs. C56: a
  `Dial` past its check survives `Shutdown`. C89: `Close` between a `Read` taking a message and confirming it leaves that
  `Read` hanging for ever. C96: the redialling of C52 is a data race, too.
* C57: the semaphore does not wake the next waiter when a heavy first waiter gives up.
* C60: a hook that closes its message loses the reply (or answers the wrong identifier).
* C61: a long sub-protocol name makes a server no client can connect to.
* C69: `Fulfill` returns true for a request `AwaitReply` has given up; the message is never closed.
* C66: `OnClientDisconnected` is called after unlinking, and handlers of the connection may still start afterwards.
* C70: a hook that closes its message gives the object away while the server still uses it: messages of other clients get
  mixed up. C71: `Connection.Close` does not wait, and requests arriving after it get no reply.
* C72: `OnSessionClosed` is called with `sessionLock` held, so a hook asking the connection for its session deadlocks.
* C80: `CreateSession` calls the key generator with `sessionLock` held and unlocks without `defer`; the project's own test
  recovers from such a panic, after which the connection can never be cleaned up.
* C73: a timer tick left over from one read of a memchan socket fails the next read before its deadline (Go before 1.23).
* C63, C64, C91: overlapping session operations on one connection leave registry and session different (which no order of the
  operations does), or dereference nil.
* C79: the registry is unlocked before `OnSessionClosed` is called: a session restored in between is destroyed although its
  client was told that it has it.
* C81: `CreateSession` unlocks before it calls `OnSessionCreated`: if the session is closed in between,
  `DefaultSessionManager` dereferences nil or saves the session under an empty key. C82: the client is told about a session
  before it is saved, and cannot restore it yet. C83: a session closed before it was saved stays for ever.
* C87: `register`, `deregister` and an error of `CreateSession` read `session` without its lock: data races.
* C88: `CreateSession` waits for the client with the session lock held, contrary to its documentation; `Server.CloseSession`
  waits for each client in turn; `Close` cannot disconnect a client while `CreateSession` waits for it.
* C84: `MkdirAll` with mode 0640 makes a directory only root can use, and panics if it has to make more than one.
* C85: integers (and much else) in session information change their type when the session is restored with the default
  session manager. C86: session keys that are not UTF-8 are altered in what the client is told.
* C90: `srv.connections` keeps every connection that was ever accepted.
* C102: a connection accepted just before `Shutdown` is set up, and served, after `Shutdown` returned.
* C104: with a concurrency limit other than 0 and 1 a hook does not block other interactions with its client.
* C106: `IsActive` says true during a shutdown, when requests are refused; and handlers start after it has become false.
* C105: `RemoteAddr` of a memchan socket returns an address, not nil, when the socket is not connected.
* C98, C99: because of C29, requests received during a shutdown may never be answered, and connections lost then may never be
  cleaned up.
* C93: a successful restoration is answered by a UTF8 reply, not a binary one as documented; closure requests may be refused.
* C94: a session too long for a message is restored on the server only; the client that asked gets no answer.
* C95: `CloseSession`, closure requests and restorations tell the client after they released the lock: when a `CreateSession` or
  `CloseSession` overlaps, client and server end up with different ideas of the session.
* (observation) A nil `*ErrRequest` in an error panics.
  `CreateSession` stores the user's information object without copying it.
* (observation) README.md says that the number of concurrent handlers is unlimited by default; `ConnectionOptions` and the code
  take the default 0 for 1.
* C108: `Reply.Close` called twice closes whatever the recycled message is in use for by then; `Reply.Payload` does not check for closed messages as `Message.Payload` does.
* C109: `Run` returns while a request is being handled, if a signal arrived during shutdown.
* C110: a transport given to two servers gives the sockets of both the buffer size of the second.
* C111: `ErrTimeout`, `ErrDeadlineExceeded`, `ErrCanceled` and `ErrProtocol` without a cause panic when printed; `ErrDisconnected` does not.

## Trusted base

* Lean 4.33.0's kernel.
* The axioms listed below per theorem. They are Lean's own three; none is added.
* The reading of the Go code recorded in the model's comments, and the semantics of Go and its standard library
  assumed there.
* The statements in `Spec/` and `Props/` as renderings of the English properties.

Mathlib is used for lemmas only; everything it contributes is checked by the kernel.

<!-- axioms -->
* `propext` (28 theorems): C02_signal_roundtrip_violated, Life.C27_waits_violated, Life.C28_violated, Life.C29_reader_stuck_violated, Life.C29_no_crash_violated, Life.C30_close_again, Copying.C43_none_partial, Store.C46_violated, Store.C46_files_violated, Req.C51_errors, Mem.C54_violated, C61_accepts_clients_violated, Store.C62_corrupted_violated, Life.C66_handlers_violated, Copying.C67_nil, Req.C69_violated, Life.C71_rejected_violated, Locks.C72_for_ever_violated, ReadTimer.C73_in_time_violated, Mem.C96_violated, Life.C104_violated, Nil.C105_violated, Life.C106_ready_violated, Life.C106_false_violated, Running.C109_violated, Setup.C110_violated, Errors.C111_violated, Errors.C111_own

* `propext`, `Quot.sound` (123 theorems): C08_unclosed_message_shows_foreign_bytes, C09_rejects_oversized, C12_signal_overflow_partial, C14_honest_counts, C14_negative_count, C14_streaming_partial, C14_chunking_independent_partial, C14_failure_passed_on, C14_streaming_violated, C14_zero_read_violated, C16_use_after_close, C17_utf16_violated, C17_passthrough, C17_message, C22_answered_violated, C22_empty_code_violated, C24_internal_errors_leak_nothing, Life.C27_returns_violated, Life.C27_miscount, Life.C27_waits_for_ever, Life.C27_leaves_behind, Life.C29_released_violated, Life.C30_idle_violated, Life.C30_once_violated, Life.C30_no_new_violated, C32_failure_changes_nothing, C32_refused, C32_create_session_violated, C33_never_replaces, C33_returns, C34_listed_active_violated, Races.C37_violated, C38_destroyed_violated, C38_never_by_other_calls, C40_calls_fail, C41_panic_contained_violated, Copying.C43_partial, Copying.C43_info_partial, Copying.C43_equal_partial, Copying.C43_violated, Copying.C43_loop_violated, Copying.C43_key_violated, Store.C45_unusable_keys, Store.C46_partial, Store.C46_files_partial, Store.C48_violated, Req.C49_numbers, Req.C49_encoding, Req.C50_once_violated, Mem.C52_violated, Mem.C53_violated, Mem.C55_violated, Mem.C56_violated, Sem.C57_within_size, Sem.C57_fifo, Sem.C57_release_ok, Sem.C57_prompt_violated, Sem.C57_prompt_partial, C60_handler_may_close_violated, C60_error_after_close_unanswered, C60_taken_from_another, C61_accepts_clients_partial, C61_refuses_clients, Store.C62_violated, Races.C63_violated, Races.C64_violated, Races.C64_create_violated, Life.C66_read_error, Life.C66_before_unlink_violated, Copying.C67_partial, Copying.C67_violated, Buffers.C70_nothing_left_partial, Buffers.C70_violated, Buffers.C70_other_violated, Life.C71_blocks_violated, Life.C71_never_waits, Locks.C72_violated, ReadTimer.C73_new_timers_partial, ReadTimer.C73_partial, ReadTimer.C73_stale_tick, ReadTimer.C73_violated, ReadTimer.C73_no_hang, ReadTimer.C73_each_once, ReadTimer.C73_select_violated, C78_server_close_session_violated, Races.C79_violated, Locks.C80_for_ever_violated, Locks.C80_violated, Races.C81_violated, Races.C81_key_violated, Races.C82_violated, Races.C83_violated, Dir.C84_made_violated, Dir.C84_nested_violated, Dir.C84_violated, Dir.C84_partial, Dir.C84_accepts_partial, Json.C85_fields, Json.C86_fields, Json.C86_names, Locks.C87_partial, Locks.C87_violated, Locks.C88_violated, Locks.C88_create_blocks_violated, Locks.C88_close_session_violated, Life.C90_list, Life.C90_grows_violated, Life.C90_violated, Races.C91_violated, C94_violated, Sync.C95_violated, Sync.C95_closure_violated, Sync.C95_restore_violated, C100_connections, C100_messages, C100_calls, Accept.C102_violated, Accept.C102_after_return_violated, Replies.C108_violated, Running.C109_not_before, Running.C109_returns, Setup.C110_too_early, Errors.C111_context

* `propext`, `Classical.choice`, `Quot.sound` (338 theorems): C01_request_roundtrip, C02_signal_roundtrip_partial, C02_utf16_signal_without_payload_refused, C03_reply_roundtrip, C04_error_reply_roundtrip_partial, C04_error_reply_encoding_violated, C05_special_reply_roundtrip, C05_restore_session_roundtrip, C05_close_session_roundtrip, C05_session_created_roundtrip, C05_session_closed_and_heartbeat_roundtrip, C06_acceptconf_fails_iff, C06_acceptconf_roundtrip, C07_readBytes_never_panics, C08_no_foreign_bytes, C09_accepts_exactly_the_grammar, C09_grammar_unambiguous, C10_invalid_writes_nothing, C10_valid_is_written, C11_closes_exactly_once, C11_returns, C11_failure_reported, C12_lengths_exact, C12_signal_overflow_violated, C13_distinct_messages_distinct_bytes, C14_trusts_counts, C15_get_is_clean, C15_recycled_like_new, C16_never_handed_out_twice, C16_closed_message, C17_utf16_partial, C17_supplementary_lost, C17_any_text_partial, C17_correct_iff, C17_fails_iff_odd, C17_any_units_partial, C17_library, C18_newServer, C18_prepare, C18_prepare_idempotent, C18_panics_only_without_directory, Setup.C18_initialize, C19_configuration_before_hooks, C19_first_message, C19_configuration_content, Life.C20_interleaved, C20_dispatch, C20_no_reply, C20_heartbeat, C20_user_code, C20_user_code_serve, C21_malformed, C21_read_error, Life.C22_interleaved, C22_answered_once_partial, C22_run_answered_in_order_partial, C22_signals_unanswered, C22_room_partial, C22_too_long_violated, C23_result_to_reply, C23_unanswerable, C25_limit_given, C25_limit_kept, Life.C25_limit, Life.C25_serial, Life.C25_no_end_without_start, C26_arrival_order, Life.C26_one_after_the_other, Life.C26_finish_after_start, Life.C27_waits_partial, Life.C27_waits_for_earlier_handlers_partial, Life.C27_returns_partial, Life.C27_drains_partial, Life.C27_called_when_idle, Life.C27_done, Life.C27_handlers_left, C28_refusal_changes_nothing, Life.C28_requests_partial, Life.C28_refused_partial, Life.C28_refused_at_once, Life.C28_refused_le, Life.C28_only_requests_refused, Life.C29_slots_accounted_partial, Life.C29_released_before_shutdown_partial, Life.C29_no_crash_partial, Life.C29_crash_iff, Life.C29_crash_reason, Life.C29_no_crash_signals_partial, Life.C29_waits_for_ever, Life.C29_sequential, Life.C30_idle_partial, Life.C30_once_partial, Life.C30_no_new_partial, Life.C30_closed_in_the_end_partial, Life.C30_tasks, Life.C30_at_most_twice, Life.C30_one_more, Life.C30_stays_open, Life.C30_embeds, Life.C30_sequential, C31_released_once_and_last, C31_every_buffer_released, C32_success, C32_create_session_counted_partial, Races.C32_succeeds_iff_told, C34_listed_active_partial, C34_registry_agrees_violated, C34_registry_agrees_partial, C34_listed_connections_partial, C34_number, C34_sessions_listed_partial, C35_connection_limit, C35_connection_limit_interleaved, Races.C35_concurrent, C36_of_regOk, C36_sessions_have_connections, C36_sessions_have_connections_interleaved, Races.C37_unlimited_partial, Races.C37_partial, C38_closure_answered, C38_close_session_partial, C38_closure_request_partial, C38_never_otherwise, C39_errors_partial, C39_closes_whole_session_violated, C39_closes_whole_session_partial, Races.C39_concurrent_partial, C40_no_sessions, C40_requests_refused, C41_hook_errors_ignored_partial, C41_returns_iff, C42_restore_outcomes, Key.C44_length_all, Key.C44_injective, Key.C44_key, Key.C44_unique, Key.C44_no_random, Key.C44_new_session, Key.C44_nonempty, Store.C45_violated, Store.C45_partial, Store.C45_saved_partial, Store.C45_stored_partial, Store.C46_generated_partial, Store.C47_violated, Store.C47_partial, Store.C47_results_partial, Store.C48_partial, Store.C48_lookup_partial, Req.C49_distinct, Req.C49_pending, Req.C49_stays, Req.C50_right_reply, Req.C50_right_request, Req.C50_true_delivers, Req.C50_true_iff, Req.C50_later_false, Req.C50_returns_violated, Req.C50_once_partial, Req.C50_returns_partial, Req.C50_false_partial, Req.C51_forgotten, Req.C51_later_false, Mem.C52_partial, Mem.C52_fits, Mem.C52_lives_partial, Mem.C53_blocks_violated, Mem.C53_partial, Mem.C54_stuck_violated, Mem.C54_partial, Mem.C55_hangs_violated, Mem.C55_no_panic_partial, Mem.C55_partial, Mem.C55_ends_partial, Mem.C55_lives_no_panic_partial, Mem.C55_lives_partial, Mem.C55_lives_ends_partial, Mem.C56_partial, Mem.C56_refuses, Sem.C57_nobody_forgotten, Sem.C57_prompt_equal_weights_partial, Sem.C57_at_once, C58_end_to_end, C58_nothing_else, C59_ready_again, C59_no_input_stops_the_server, Life.C59_always_ready, Life.C59_goes_on, C59_during_shutdown, C60_handler_may_close_partial, Store.C62_partial, Races.C63_partial, Races.C64_partial, Races.C65_operations_end, Life.C66_handlers_bounded_partial, Life.C66_once, Life.C66_nothing_received_after, Life.C66_not_forgotten, Life.C66_handlers_partial, Copying.C67_any, Req.C68_is_pending, Req.C68_count, Req.C68_no_leak, Req.C69_none_lost, Req.C69_partial, Buffers.C70_partial, Buffers.C70_one_holder_partial, Buffers.C70_pool_empty_partial, Life.C71_rejected_partial, Locks.C72_partial, Locks.C72_hooks_without_locks_partial, ReadTimer.C73_heartbeat_partial, ReadTimer.C73_interval_partial, C74_reply_last, C74_signals_in_order, C75_pipelined, C76_not_accepted, C76_closed_once, C76_stays_closed, C77_isolated, C77_others_get_nothing, C78_close_session, C78_server_close_session_partial, Races.C79_only_closing, Races.C79_once_partial, Races.C79_closed_is_destroyed_partial, Races.C79_partial, Locks.C80_partial, Races.C81_partial, Races.C82_partial, Races.C83_partial, Races.C83_saved_partial, Json.C85_native_partial, Json.C85_lookups_partial, Json.C85_field_partial, Json.C85_integers, Json.C85_violated, Json.C86_key_partial, Json.C86_generated, Json.C86_info_partial, Json.C86_violated, Json.C86_restored, Json.C86_saved, Locks.C88_partial, Locks.C88_holders_partial, Mem.C89_read_hangs_violated, Mem.C89_violated, Mem.C89_partial, Mem.C89_ends, Mem.C89_lives_partial, Life.C90_partial, Races.C91_partial, Races.C91_rest_partial, Races.C91_embeds, Races.C91_sequential, Life.C92_waits_shutdown, Life.C92_signal_starts_shutdown, Life.C92_few_requests, Life.C92_starts, Life.C92_reached, Life.C92_waits, C93_violated, C93_closure_violated, C93_partial, C94_partial, Sync.C95_partial, Mem.C96_only_partial, Mem.C96_partial, Mem.C96_writes, Mem.C96_reads, Whole.C97_own_answer, Whole.C97_handled_once, Whole.C97_answered_once, Whole.C97_never_blocks, Whole.C97_answered, Whole.C97_all_answered, Whole.C97_close_answer, Whole.C97_restore_answer, Whole.C97_close_handler, Whole.C97_restore_handler, Whole.C98_ends, Whole.C98_reached, Whole.C98_partial, Whole.C98_violated, Whole.C98_stays_open, Whole.C98_unbroken_partial, Whole.C98_shutdown_partial, Whole.C98_all_but_one_partial, Whole.C98_refused_le, Whole.C98_few_requests_partial, Whole.C98_unbroken_few_partial, Life.C99_or_full_partial, Life.C99_few_requests_partial, Life.C99_ends, Life.C99_rests, Life.C99_partial, Life.C99_violated, Accept.C101_in_order, Accept.C101_first, Accept.C101_called, Accept.C101_otherwise_the_same, Accept.C102_partial, Accept.C102_dialed_later_partial, Life.C103_ends, Life.C103_settles, Life.C103_handled, Life.C103_late_signals_lost, Life.C104_serial_partial, Life.C104_session_partial, Nil.C105_no_panic, Nil.C105_alone, Nil.C105_pair, Nil.C105_apart, Nil.C105_address_partial, Life.C106_for_ever, Life.C106_closed, Life.C106_disconnected, Life.C106_until_closed, Life.C106_ready_partial, Life.C106_false_partial, Life.C106_ready, Whole.C107_as_sent, Whole.C107_not_answered, Whole.C107_all_handled, Whole.C107_unbroken, Whole.C107_in_order, Whole.C107_shutdown_handled, Whole.C107_all_but_one, Whole.C107_few_requests, Replies.C108_partial, Replies.C108_one_place_partial, Replies.C108_identifier, Replies.C108_released, Running.C109_partial, Setup.C110_buffer, Setup.C110_partial, Errors.C111_root, Errors.C111_partial

<!-- end axioms -->

## What is modelled

| File in /repo | Where | Left out |
| --- | --- | --- |
| message/*.go | Model/Message, Parse, Write, BufferRead, BufferCount, Pool, Buffers | what `io.Copy` does with impossible read counts; error texts only as far as they are constant |
| payload/*.go, payload.go | Model/Payload | |
| connection.go | Model/Server, Lifecycle, SessionRaces, SessionSync, Locks, DeepCopy | remote address, creation time, `Info` |
| handle*.go, registerHandler.go, deregisterHandler.go, failMsg.go, fulfillMsg.go | Model/Server, Lifecycle, Accept, SessionRaces | logging, contexts given to hooks, panicking `OnRequest`/`OnSignal` hooks |
| sessionRegistry.go | Model/Server, SessionRaces, Locks | |
| server.go, isShuttingDown.go | Model/Server, Lifecycle, Running, Accept, Locks | `Address` |
| newServer.go, serverOptions.go | Model/Options, Setup | loggers apart from being set |
| session.go | Model/SessionKey, Server, DeepCopy, SessionJson | in Server, JSON encoding is a parameter |
| genericSessionInfo.go, sessionInfoToVarMap.go | Model/DeepCopy, SessionJson | static types |
| defaultSessionManager.go | Model/SessionStore, SessionDir, SessionJson, SessionRaces (calls of `OnSessionCreated`) | symbolic links, full disks, torn reads |
| sessionLookupResult.go, connectionOptions.go, interfaces.go, socket.go, transport.go | their types | |
| requestManager/*.go, translateContextError.go, errors.go | Model/RequestManager, Replies, Whole, Locks, Errors, Spec/EndToEnd | what package fmt prints in place of an error that panics |
| transport/memchan/*.go | Model/Memchan, MemchanRace, MemchanNil, Setup, ReadTimer | the text of addresses; time only in ReadTimer |
| vendor/golang.org/x/sync/semaphore | Model/Semaphore | int64 overflow |
| Go client, HTTP/WebSocket transports, tests | not in this repository, or not modelled | |

Concurrency is modelled at the granularity of critical sections, atomic and channel operations (sequential consistency);
data races in the sense of Go's memory model appear as separate steps where the code reads shared fields without a lock, and
are the subject of C87 and C96.
encoding/json is modelled as a translation between values and document trees (`Model/SessionJson`): the text, limits on
nesting, cyclic values and case-insensitive field names are left out. Memory exhaustion, goroutine scheduling fairness and the garbage collector are outside the model. Liveness theorems say
that no reachable state is stuck and that internal steps cannot go on for ever, or give the steps that lead to the goal.
