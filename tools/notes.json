{
 "C02": "Full statement C02_full is false: a UTF16 signal with a name and no payload is accepted by the writer and refused by the parser (C02_signal_roundtrip_violated). The partial theorem covers every other signal.",
 "C04": "Full statement C04_full is false: the parser reports every error reply as binary (parse.go:100). The partial theorem proves everything but the reported encoding.",
 "C08": "Holds for messages returned to the pool before reuse; a theorem shows what happens otherwise.",
 "C12": "The length functions are exact. The overflow check of Connection.Signal is proved below 4 GiB and refuted above (uint32 truncation).",
 "C14": "C14_full is false: bytes returned together with io.EOF on a full buffer are accepted (C14_streaming_violated), and a zero-byte read without error on a full buffer is refused (C14_zero_read_violated). The partial theorems cover all other readers. Readers that report counts other than of what they stored: negative counts panic, others are trusted (C14_negative_count, C14_trusts_counts).",
 "C15": "Over all histories in which holders stop using closed messages.",
 "C17": "C17_full is false: characters outside the BMP become two replacement characters. C17_any_text_partial gives the result for every text; C17_correct_iff: it is right exactly for texts within the BMP. Odd lengths and pass-through proved outright.",
 "C18": "Whether the default session directory can be created is a parameter.",
 "C19": "Sequential model of one connection's reader; over arbitrary sockets, and on the network of Spec.Net for what the client receives.",
 "C22": "C22_full is false: handler results that cannot be encoded (odd UTF16 payload, unsendable error code) get no reply. The partial theorems cover all answerable results, for one message and for whole runs of a connection. Life.C22_interleaved: for any number of connections and goroutines and any schedule, every request is refused, finished, dropped on a closed connection or still being worked on, none twice. C22_room_partial, C22_too_long_violated: on networks with message buffers of a fixed size the reply is sent if it fits, and otherwise the client is never answered.",
 "C23": "Every answerable result gets exactly its reply; a result with no reply gets none.",
 "C26": "C26_arrival_order: one connection run sequentially with all effects; C26_one_after_the_other and C26_finish_after_start: all schedules of the goroutine model.",
 "C59": "Assumes sockets and hooks that return, no shutdown in progress and a free handler slot. For servers that do one thing after the other the free handler slot is proved, not assumed (C59_always_ready, C59_goes_on). During a shutdown it is said exactly which inputs stop the server.",
 "C60": "False of the code: witness in C60_handler_may_close_violated, and with overlapping handlers another connection's message may be taken away (C60_taken_from_another, see C70). C60_handler_may_close_partial, for handlers run one after the other on the ideal network: only replies on that connection are affected. Missing: that the replies are unaffected, which is false.",
 "C61": "False of the code for long sub-protocol names; proved for those that fit. C61_refuses_clients: a server with a longer name refuses every client.",
 "C32": "Failure and success proved outright. Being counted (C32_full) is false when the key generator repeats a key under a connection limit (the registry's error is ignored); proved without a limit or with fresh keys. C32_success includes the times of the new session, C32_refused says who is refused at once. While session operations overlap in any way, CreateSession succeeds exactly when the client was told (C32_succeeds_iff_told).",
 "C33": "For all worlds.",
 "C34": "C34_full is false: restoring a session on a connection that has one leaves the old registry entry. Proved for histories without such restorations (and without repeated keys under a limit); each half also under weaker conditions. C34_number: SessionConnectionsNum counts what SessionConnections lists. C34_listed_active_*: a connection that was closed is not listed, except after such a restoration; then the session cannot be restored any more if the limit of connections is reached (haunted).",
 "C35": "Over histories of whole operations, and over arbitrary interleavings of the registry's critical sections.",
 "C36": "Over histories of whole operations, and over arbitrary interleavings of the registry's critical sections.",
 "C38": "C38_full is false in histories with restorations over an existing session. 'Nothing else destroys a session' is proved for all states. That events are the calls of the hooks with these arguments is C20_user_code. C38_closure_answered: a closure request gets one empty reply, with or without a session.",
 "C39": "C39_full is false in histories with restorations over an existing session; proved for the others, with arbitrary socket failures. While other session operations overlap with it: when it has ended nobody is registered for the session and no idle connection has it, unless the session is restored or created meanwhile (C39_concurrent_partial).",
 "C40": "Over all histories.",
 "C41": "C41_full is false: the recovery function itself panics (sessionRegistry.server is never set). Proved for hooks that return when called; C41_returns_iff: a closure returns exactly then.",
 "C42": "On the ideal network, while not shutting down.",
 "C25": "All schedules, any number of connections and goroutines (Model/Lifecycle), stated on the log of handler starts and ends. C25_limit_given, C25_limit_kept (Model/Server): the limit is the ConcurrencyLimit the connection was accepted with, for as long as the server knows it.",
 "C27": "C27_waits_full and C27_returns_full are false: signals handled during shutdown are uncounted without having been counted. Proved for executions in which no such message gets past the check (fewer than 2^32 goroutines). C27_miscount says by how much the count is off in every execution, C27_called_when_idle what a Shutdown called with nothing in progress does then, C27_done which handler lets a waiting Shutdown go and which one crashes the server. C27_waits_for_ever: a Shutdown that waits after more signals were late than messages are in progress never returns. C27_leaves_behind, C27_handlers_left: every late signal makes Shutdown miss one handler at most.",
 "C28": "C28_full is false for signals. Proved for requests, including that they are refused. C28_refused_at_once: on a connection with a free slot a request is refused without anybody else having to do anything. C28_refused_le: no more requests are refused than arrived.",
 "C29": "False: refused requests keep their handler slot (two refusals block a connection with limit 2 for ever) and a socket without writers crashes the server. Exact accounting of lost slots and absence of crashes otherwise are proved. A reader that waits for the slots of refused requests waits for ever; in a server that does one thing after the other it is said exactly which requests stop it. C29_crash_iff says exactly when the server crashes, C29_crash_reason and C29_no_crash_signals_partial that with fewer than 2^32 goroutines and late signals only a missing writer makes it crash.",
 "C30": "False: Close between the IsActive check and registerTask. Proved for executions without that race. The sequential model of the server is contained in the concurrent one (C30_embeds), in executions without it, so whatever is done one thing after the other closes sockets as it should (C30_sequential). In every execution, the race included, the socket is closed at most twice (C30_at_most_twice) and at most one message is handled in addition to those registered before Close (C30_one_more).",
 "C57": "Limit, order and release proved. The last part is false when a heavy first waiter gives up: the lighter one behind it is not woken. Proved without cancellation, and when all weights are equal, as in the server.",
 "C49": "For any number of goroutines; the numbers wrap around after 2^64 requests.",
 "C50": "Fulfill and Fail look the request up and remove it in two critical sections: overlapping calls for one request both return true, and one may wait for ever. Proved if no two calls for the same identifier overlap (calls for different ones may); that replies go to the right request and later calls return false is proved for all interleavings.",
 "C51": "For all interleavings. A call that overlaps with the giving up may still return true.",
 "C44": "The random bytes are an argument; crypto/rand itself is not modelled.",
 "C45": "False for keys with slashes (\"./a\" names the same file as \"a\"). Proved for keys without slashes, operations one at a time; JSON is a parameter assumed to keep the sessions used.",
 "C46": "False: keys are not checked for slashes or '..'. Proved for keys without slashes, in particular all generated ones.",
 "C47": "False: files are truncated and then written in place, also by lookups. Proved for sessions whose own file is not being written at the crash.",
 "C48": "False: an overlapping lookup writes the removed file again. Proved if closing does not overlap with other operations on the same file.",
 "C62": "False: a lookup reads a file another lookup has truncated, and overlapping lookups of different length corrupt the file for good. Proved for lookups that do not overlap.",
 "C52": "False if a socket pair is dialled again while an old reader has not copied its message. Proved for pairs dialled at most once (C52_partial), and in each life of pairs dialled any number of times, if they are dialled again when closed and all calls on them have returned (C52_lives_partial); any number of readers, writers and closers.",
 "C53": "False: a write that put nothing into the buffer (rejected or too long) keeps both locks; the socket is blocked for ever (C53_blocks_violated). Proved if every message written is accepted and fits.",
 "C54": "False: a Dial refused by a server shutting down or a closed transport leaves the socket 'connected', so it can never be dialled again. Proved for refusals by OnBeforeCreation.",
 "C55": "False: a writer past its check of the status sends on a closed channel and panics; without a panic it may wait for ever. Proved if Close does not begin while a writer is handing over its message. That everybody leaves (C55_ends_partial) needs in addition that Close does not come between handing over a message and its confirmation by a Read under way, see C89. The same for each life of pairs that are dialled again when closed and all calls on them have returned (C55_lives_no_panic_partial, C55_lives_partial, C55_lives_ends_partial).",
 "C56": "False: a Dial past its check registers a connection after Shutdown has looked at them. Proved if no Dial overlaps with Shutdown; that Serve returns and later Dials fail is proved for every history.",
 "C37": "False: with a limit, two connections restoring the same session at once both pass the check and the second makes the server panic. Proved without a limit for any number of overlapping restorations; proved with a limit, next to any other session operations, if admissions to a session are one by one and operations on the same connection that do not hold its lock (restoration, closure request, disconnection) do not overlap with others.",
 "C63": "False: a session closure request resets a session created while it was being handled. Proved for any overlap of CreateSession and CloseSession, if the operations that do not hold the lock of the connection (restoration, closure request, disconnection, the failing end of CreateSession) do not work on the session of the same connection together with others (and, with a limit, admissions are one by one).",
 "C64": "False in two ways: deregister reads the key of a session reset after its check; CreateSession reads the key of the other session after unlocking. Proved if the operations that do not hold the lock of the connection do not work on its session together with others; those that hold it may overlap. With DefaultSessionManager there is a third way, see C81.",
 "C65": "Hooks are taken to return without calling back into the connection whose lock is held.",
 "C43": "Violated as stated: pointers are copied as they are, so a write through the copy's pointer changes the stored session (C43_violated); information containing itself makes the call never return (C43_loop_violated); nil and NaN keys of nested maps make it panic (C43_key_violated). Proved over a heap model for values of maps, slices, interfaces and scalars of any shape (C43_partial for Session, C43_info_partial for SessionInfo): the call returns, the copy is deeply equal, the stored value is unchanged, and no program given one can change the other. With pointers the copy is still equal (C43_equal_partial).",
 "C58": "Composition of the writer, the server on the ideal network, the parser and the request manager. The client program is not in this repository: it is assumed to tell its request manager about each reply it receives (Spec/EndToEnd.clientTells). Hypotheses: OnRequest does not close its message (C60), the server is not shutting down, the result can be sent (C22/C23 say what happens otherwise).",
 "C66": "Violated as stated: with a concurrency limit above 1 (or none) handlers run, and even start, after OnClientDisconnected (C66_handlers_violated), and the connection is unlinked before the call, not after it (C66_before_unlink_violated). Proved for all schedules: at most one call per connection (C66_once), none is forgotten (C66_not_forgotten, C66_read_error: the goroutine on the way to the call only ever waits for a handler slot), nothing is received afterwards (C66_nothing_received_after), and with limit 0 or 1 all handlers are done (C66_handlers_partial). On connections with limit n > 1 at most n handlers outlast the call (C66_handlers_bounded_partial).",
 "C67": "Violated as stated: pointers are copied as they are (C67_violated). Proved under the conditions of C43 (C67_partial); C67_nil for nil, C67_any for other implementations of SessionInfo.",
 "C68": "Exactly characterised for all interleavings with fewer than 2^64 requests: a request counts as pending until it was given up or a call removed it from the table, which is just before that call delivers.",
 "C69": "Violated: a call that has found the request delivers to it and returns true although AwaitReply gave up meanwhile; the reply message is never closed (C69_violated). Proved: what is delivered is returned once or is still in the channel (C69_none_lost, all interleavings), and it is the right one (C69_partial, if calls of Fulfill and Fail for the same identifier do not overlap).",
 "C70": "Violated if hooks call Close: the object goes back to the pool while its handler still has it, so that another connection's message appears in it (C70_violated), and the handler's own Close later empties that other message under its hook (C70_other_violated). Proved for all schedules if hooks do not (C70_partial, C70_one_holder_partial, C70_pool_empty_partial); what was received stays in an object only while a goroutine has it (C70_nothing_left_partial).",
 "C71": "Violated: Close never waits (C71_blocks_violated, C71_never_waits), and requests on a closed connection are dropped without a reply (C71_rejected_violated). Proved: on a connection that was not closed every request is handled, refused with a reply, or under way (C71_rejected_partial).",
 "C72": "Violated: Connection.CloseSession calls OnSessionClosed holding the connection's session lock; a hook that asks this connection for its session hangs (C72_violated) for ever (C72_for_ever_violated). Proved for all schedules and all calls made by other hooks, and for hooks called with a lock held if they call only functions that look at no connection's session: nobody is part of a deadlock (C72_partial). Only OnSessionClosed, Generate and the methods of session information are ever called with a lock held, the session lock of one connection (C72_hooks_without_locks_partial).",
 "C73": "Violated with the timers the repository is built with (Go 1.11, .travis.yml): Stop does not empty the timer's channel, so a tick left by one read fails the next one at once (C73_violated, for every timeout C73_stale_tick); and with any timers a message that arrived in time may be refused, because select picks at random (C73_select_violated). Proved: with Go 1.23 timers a read fails only after its own deadline (C73_new_timers_partial); with Go 1.11 timers too, unless an earlier read took a message after its timer had expired (C73_partial); no read hangs past its deadline (C73_no_hang); a client whose messages come in time, read promptly, is never disconnected (C73_heartbeat_partial). Partial: time is discrete and promptness of the reading goroutine is a hypothesis. C73_each_once: each message that arrived is returned by one read or still waits.",
 "C74": "For handlers run in sequence on an ideal network; other goroutines may of course send to the same client in between (not part of this claim).",
 "C75": "Server side for requests handled in sequence (default ConcurrencyLimit); client side for replies taken in any order, so it covers reordering by concurrent handlers as well. Handler results that cannot be encoded are excluded (they get no reply, C22).",
 "C76": "Handlers run in sequence. In whole executions with concurrent handlers the socket may be closed early or twice, see C30; the hook call itself is C66. \"A closed connection has no session\" for sockets that stay closed (StaysClosed; the in-memory network does). C76_stays_closed: so it stays, whatever happens afterwards to any connection.",
 "C77": "For hooks that mind their own connection (Minds); handlers run in sequence.",
 "C78": "CloseSession of a connection without restriction. Server.CloseSession: violated after a restoration over an existing session (C78_server_close_session_violated, same cause as C39); proved after all other histories.",
 "C79": "The last part is false (C79_violated): deregister unlocks the registry before it calls OnSessionClosed, so a connection that restores the session in between is told it has a session that is then destroyed. Proved (C79_partial) if no session is restored or created while it is being closed. Counting and 'was destroyed' under the condition of C63 (Calm); 'only by closing' without any condition.",
 "C80": "Violated: no function of the server unlocks in a deferred call. CreateSession calls the key generator with the session lock held (and panics itself on an empty key); if its caller recovers, the lock stays held (C80_violated), the goroutine that reads from the connection hangs for ever when the client leaves, and so does everybody who asks the connection for its session (C80_for_ever_violated). Proved for all schedules if hooks called with a lock held (see C72) do not panic (C80_partial).",
 "C81": "Violated: CreateSession unlocks the session before it calls the hook. If the session is closed in between, Session() is nil there and DefaultSessionManager dereferences it (C81_violated); closed a little later the session is saved under an empty key and never removed (C81_key_violated). Both happen between operations that hold the connection's lock. Proved for all schedules in which nobody begins to close the session of the connection while OnSessionCreated runs (C81_partial).",
 "C82": "Violated: the client is told before the session manager is (C82_violated). Proved for restorations that come when CreateSession has ended, if OnSessionCreated is not disturbed (C82_partial).",
 "C83": "Violated: OnSessionClosed can be called before OnSessionCreated has saved the session, which then stays for ever (C83_violated; both operations have ended when the client comes). Proved if OnSessionCreated is not disturbed and no session is restored while it is being closed (C83_partial, C83_saved_partial).",
 "C84": "Violated for every process but root's: the directory is made with mode 0640, without permission to search it, so that nothing can be saved in it and every lookup fails (C84_made_violated); with more than one directory missing NewDefaultSessionManager panics (C84_nested_violated). Proved for root, and for others if the directory exists with sufficient permissions; the directory is the configured one and the file is in it (C84_partial). A file in the place of the directory is not noticed either (hypothesis of C84_partial). Directories that are there and can be reached are accepted as they are, and the superuser's process makes them at any depth (C84_accepts_partial).",
 "C85": "Violated: JSON has no integers, typed slices, nil slices, byte strings, ...: an integer in the session information is a float64 after the session was restored, so that SessionInfo(name).(int) works before and panics after (C85_violated, C85_integers). Proved: which values survive, exactly (C85_field_partial: if and only if JSON can express them); information consisting of them survives any number of lookups (C85_native_partial); all lookups succeed, with the right times and all with the same information, whatever it is (C85_lookups_partial).",
 "C86": "Violated for keys of custom generators that are not UTF-8: the client is told another key (C86_violated; C86_key_partial says exactly which arrive; C86_generated: those of the default generator do). Values arrive if and only if JSON can express them, information without fields arrives as no information (C86_info_partial). What clients are told when restoring agrees with what they were told first, for all information (C86_restored).",
 "C20": "Any byte sequence, server and hooks. C20_user_code: the recorded events are exactly the calls made to user code, with these arguments and in this order (besides the key generator), in every step of every history. Life.C20_interleaved: for any number of connections and goroutines and any schedule, every message with a handler gets it started once, unless it is refused (requests, during shutdown) or its connection is closed, and no other message does.",
 "C87": "Violated: register, deregister and the error message of CreateSession read the connection's session without its lock (C87_violated has an execution with a data race for each of the three). Proved for all executions: there are no other races; every race is between one of these reads, made without the session lock, and a write of the same connection's session (C87_partial). Variables written once before they are shared, atomics, user objects and memchan's buffers are outside this model.",
 "C88": "Violated: CreateSession waits, holding the connection's session lock, until the client has read the notification, so it blocks its caller, and everybody who looks at the session, and Close (C88_violated, C88_create_blocks_violated); Server.CloseSession waits for each client in turn and leaves the session open on the connections after one that does not read (C88_close_session_violated). Proved for all schedules and all sets of such clients: only goroutines sending to such a client, or taking the session lock or writer of its connection, ever wait for it (C88_partial), and holders of other locks do not (C88_holders_partial). Hooks called with a lock held are as in C72 and do not signal such clients. That messages are written synchronously is memchan's behaviour, the transport in this repository.",
 "C89": "Violated: if Close comes while a Read has taken a message and the writer waits for its confirmation, Close tells the writer, which returns; the Read then wants to confirm and waits for ever (C89_read_hangs_violated); on the server that is the goroutine serving the connection, so OnClientDisconnected is never called. Proved if pairs are dialled once, messages fit, and Close does not begin in that moment (QuietClose): when nobody can go on, everybody who waits has one of the three reasons (C89_partial); and there is no endless execution without new calls (C89_ends, for all executions). The same for pairs that are dialled again when closed and all calls on them have returned (C89_lives_partial).",
 "C90": "Violated: handleConnection appends every accepted connection to srv.connections and nothing ever removes one (nor reads the list), so all connections that ever existed are kept until the server goes, with their session, socket and options (C90_list, C90_grows_violated). The part that holds (C90_partial): for an ended connection no task is registered, and no slot is taken except those of requests refused during shutdown. References from the session registry are the subject of C34, those of the in-memory transport of C55.",
 "C91": "Violated without restrictions (C91_violated, from the C63 scenario: a closure request resets a session created meanwhile; also the crashes of C37 and C64). The part that holds (C91_partial, C91_rest_partial): for all executions in which operations that change the session of one connection without its lock do not overlap and, with a limit, admissions to a session are one by one (Calm), every state has the effects and answers of the operations executed one after the other in the order of their linearization points (effect); the refusal of CreateSession because of another session is one of these answers, refusals because of failing lookups or notifications have no effect. Server.CloseSession is a sequence of operations, one per connection. Between a session leaving the table and OnSessionClosed there is a gap (PC.announces), the subject of C79. C91_embeds: whatever Model/Server does, one thing after the other, is among the executions of Model/SessionRaces (state, sessions and calls of OnSessionClosed); C91_sequential: so done one after the other the operations do what the table says, without exception but restorations over a session and, with a limit, keys that are not new.",
 "C92": "C92_starts: from every reachable state there is an execution in which only this message arrives, no handler returns and nobody calls anything, and the handler is called; C92_waits: what a waiting goroutine waits for (C92_waits_shutdown: the same during a shutdown, where slots of refused requests count too); C92_few_requests: if fewer requests arrived than there are slots, shutdown or not, only for handlers; C92_signal_starts_shutdown: signals during a shutdown; C92_reached: any number up to the limit. The semaphore is a counter here (its queue is the subject of C57; only the reader of the connection ever waits on it). Session requests are executed by the reader itself, as documented, and so are requests and signals with a limit of 0 or 1.",
 "C93": "Violated in two ways: a successful restoration is answered by ReplyUtf8 although docs/protocol-sequences.txt says ReplyBinary (C93_violated), and a closure request may be refused (sessions disabled, shutdown) although the document knows only success (C93_closure_violated). The part that holds (C93_partial): with these two differences (Spec.documentedButSessions), for all conversations (Spec.Talk) with a server as NewServer sets it up (Spec.Made); user code does not close its message (C60), encoded sessions are not empty, and no UTF16 signals without payload are sent (unreadable, C02). Clients do not reuse the identifier of an unanswered request. Handlers and API calls are executed one after the other; for answers under concurrency see C24, C58, C75.",
 "C94": "Violated (C94_violated): if the encoded session does not fit a message the connection gets the session but the reply to the restoration is lost (fulfillMsg only logs). The part that holds (C94_partial): if the sessions that can be restored fit the message buffers. 'Exactly the session' is up to what SessionInfoParser makes of the session info (Spec.Told). The client is the specification in Spec/Client (Mind), as the client library is another project.",
 "C95": "Violated: CreateSession overlapping CloseSession (C95_violated) or a closure request (C95_closure_violated) leaves the client without the session its connection has, and a restoration overlapping CloseSession (C95_restore_violated) leaves it with a session its connection does not have, as the session changes under the lock but the client is told after (restoration, CloseSession, closure). The part that holds (C95_partial): if operations that give a session do not overlap operations that take it away; those of one kind may overlap in any way. These pairs are all there are: restorations and closure requests of a connection never overlap, and after unlink the client is not connected.",
 "C96": "Violated: a Read that has taken a message copies it from the other side's buffer without a lock; if the pair is closed and dialled again meanwhile, the next message is written into the buffer at the same time. That is the only data race (C96_only_partial, all executions), and there is none if pairs are dialled again only after all calls on them have returned (C96_partial). The steps are those of Model/Memchan, where a critical section that consists of one access is one step; Model/MemchanRace adds which variables each step accesses, and that list is tied to the steps: a step changes no variable but those it is listed to write (C96_writes), and what it does depends on no other variable than those listed (C96_reads).",
 "C97": "Composes Model/Lifecycle, RequestManager, Parse, Write and the reply functions of Model/Server (Model/Whole). A reply is written in the same step in which the handler ends; the socket delivers whole messages in order (C52) and messages are not reused while handled (C70). Session requests are included; which of the possible results a restoration has is left to the environment here, and C97_restore_handler and C97_close_handler show that the handlers of Model/Server reply as this model has it (C37 and C93 are about the sessions themselves). Restoring the last free place of a session twice at once makes the server panic (C37); no step is made of this. The client is the request manager and a reader as in Spec/EndToEnd, as the client library is another project. Handlers that close their own message (C60) are excluded: their replies lack the identifier. C75 is the version for handlers run one after the other. C97_answered: the same request by request.",
 "C98": "Violated during a shutdown: refused requests keep their handler slots, so that the reader of a connection with a limit waits for ever with a request it has read (C98_violated, the consequence of C29 seen by a client). What holds before Shutdown: C98_ends (a bound on the steps on the connection, whatever happens elsewhere; holds in all cases), C98_reached, C98_partial (what a state is like in which nothing more happens), C98_shutdown_partial (the same during a shutdown, as long as fewer requests of the connection were refused than it has handler slots and the server has not crashed), C98_all_but_one_partial (otherwise exactly as many were refused as there are slots, and of the requests the server has read all but the last one are answered), C98_few_requests_partial (a client that sends no more requests on a connection than it has slots has all of them answered, shutdown or not, unless the server crashed), C98_refused_le (what this rests on), C98_unbroken_few_partial (the same about a connection nobody breaks), C98_stays_open (the server does not hang up), C98_unbroken_partial (both together, with no condition on the connection's state). Fairness is left to the scheduler: a step that stays possible is made. The model and its limits are those of C97.",
 "C99": "Violated after a shutdown: a connection on which as many requests were refused as it has handler slots keeps its reader waiting for ever, and OnClientDisconnected is never called (C99_violated, another consequence of C29). What holds otherwise: C99_ends (a bound on the steps), C99_rests (a state is reached in which nothing more can happen), C99_partial (in such a state the connection has ended). That the server does not crash in the process is C29. Fairness is left to the scheduler. C99_or_full_partial: otherwise exactly as many requests were refused as there are slots, and the reader waits with another message. C99_few_requests_partial: it ends, shutdown or not, if fewer requests arrived than there are slots.",
 "C100": "A simulation between the server on two networks, function by function (Proofs/Simulate): a relation between the states of the networks that every operation respects is respected by everything the server does. Sequential (Model/Server).",
 "C101": "Model/Accept puts the beginning of handleConnection before the loop of Model/Lifecycle; C101_otherwise_the_same says that nothing else changes, so the other theorems about Model/Lifecycle apply. That others do not have to wait is C101_called (which holds whatever else is under way) and the example beside C101_in_order.",
 "C102": "Violated: the transport asks isShuttingDown before it starts the goroutine of the connection; Shutdown may be called, and return, in between. Then OnClientConnected is called after Shutdown returned, and the client is served (C102_violated, C102_after_return_violated). What holds: clients of which the transport asks after Shutdown was called are refused. C56 is the side of the in-memory transport.",
 "C103": "C103_ends: a bound on the steps of the goroutines of the connection; C103_settles: so it comes to rest; C103_handled: then every signal received before Shutdown was handled as often as it was received, unless the connection was closed. C103_late_signals_lost shows that signals received during a shutdown may remain unhandled (the documentation says they are ignored).",
 "C104": "Violated on connections with a concurrency limit other than 0 and 1: their handlers run on goroutines of their own, and overlap (C104_violated). What holds: everything on connections with limit 0 or 1 (C104_serial_partial); and while a session is restored or closed on request, nothing is received on the connection whatever its limit, but handlers of messages received before may start and end (C104_session_partial).",
 "C105": "Violated for RemoteAddr: sockets that are not connected, even those without a server, return an address (C105_violated); what holds is that connected sockets have the address of their remote (C105_address_partial). The rest is proved: C105_no_panic, C105_alone, C105_pair, C105_apart. Calls are atomic here; interleavings are the subject of C52-C56, C89 and C96.",
 "C106": "Violated twice: during a shutdown requests are refused on connections that say they are active (C106_ready_violated), and a message that passed registerHandler's check is handled after IsActive has become false (C106_false_violated). What holds: true until Close or a read error (C106_until_closed), false for ever (C106_for_ever), after Close (C106_closed) and in OnClientDisconnected (C106_disconnected); before Shutdown no message of an active connection is dropped or refused (C106_ready_partial), later none is dropped and only requests are refused (C106_ready); once it is false nothing that arrives later is handled (C106_false_partial).",
 "C107": "Over Model/Whole (clients, wire and goroutines of the server together). C98_reached tells that the state C107_all_handled speaks of is reached. C107_shutdown_handled: signals during a shutdown, as long as fewer requests of the connection were refused than it has handler slots. C107_all_but_one: whatever was refused, only the last message read may be left. C107_few_requests: the condition in terms of what the client sent, fewer requests than slots.",
 "C108": "Violated for Close called twice: if the message of a closed reply is in use again, closing the reply once more closes the reply (or empties the message) of somebody else (C108_violated). Otherwise proved for all interleavings of the request manager, the pool and their users: C108_partial, C108_one_place_partial, C108_released. C108_identifier justifies that the request manager's model reads the identifier of the message once. Reading a reply after closing it is not prevented by the code and not covered; messages of requests that were given up stay in their channels (C69).",
 "C110": "Violated if one transport is given to several servers: sockets have the buffers of the last one (C110_violated). Proved for transports of one server (C110_partial); C110_buffer: what a buffer of a given size takes; C110_too_early: before NewServer, NewSocket panics.",
 "C109": "Violated: a signal that arrives during shutdown is uncounted without having been counted (C27), so that Run returns while a request is being handled (C109_violated). Proved otherwise: C109_partial (no signal gets past the shutdown check after Shutdown was called, fewer than 2^32 goroutines), C109_not_before and C109_returns (all executions). The in-memory transport; changing its status and closing its channel are one step.",
 "C111": "Violated: ErrTimeout, ErrDeadlineExceeded, ErrCanceled and ErrProtocol without a cause panic when printed (C111_violated). C111_partial: exactly which errors can be printed; C111_root: what they print; C111_own: those the library makes all can; C111_context: timeouts and cancellations."
}