# Formal model of ion: design

Subject: `rhargreaves/ion` at the commit in `/repo`, an HTTP/2 server in C++.
Tool: Lean 4.33.0. Nothing in `/repo` is compiled or executed; the Lean definitions
are a hand translation of the C++ text, each with a citation of file and lines.

## Layout

| Directory | Contents |
|---|---|
| `lean/Verif/Model/` | translation of the C++ code, function by function |
| `lean/Verif/Spec/`  | small independent specifications (RFC 7541, RFC 9113, histories of a server); the specifications of the application and of files stand at the top of their `Props` files |
| `lean/Verif/Lemmas/` | auxiliary proofs |
| `lean/Verif/Props/` | the property theorems `Cnn_...`, each with `example`s showing that its hypotheses are met by a concrete case |
| `lean/Verif/Tests/` | the project's own tests (`test/unit`, `test/integration`, part of `test/system`) evaluated in the model: a check of the translation, not proofs and not claims |
| `seeded/LOG.jsonl` | wrong programs the theorems were tested against |

A `_refuted` (or `_exists`) theorem is a proof with a concrete witness that the property as stated in
`properties.jsonl` is false of the code; the `_partial` theorem beside it is the strongest version found,
and its comment says what is missing.

## What is modelled

| Code | Model | Left out |
|---|---|---|
| `lib/hpack/byte_reader`, `int_decoder`, `int_encoder` | `IntCodec` | - |
| `lib/hpack/huffman_codes.h`, `huffman_tree`, `bit_reader.h`, `bit_writer.h` | `Huffman` | memory management of the tree |
| `lib/hpack/header_static_table.h`, `dynamic_table` | `DynamicTable`, `FrameLog` (what it logs) | - |
| `lib/hpack/header_block_decoder`, `header_field.h` | `HeaderDecoder`, `FrameLog` (what it logs) | - |
| `lib/hpack/header_block_encoder` | `HeaderEncoder`, `FrameLog` (what it logs) | - |
| `lib/http2_frames.h`, `http2_frame_reader` | `Frames` | - |
| `lib/http2_conn` | `Connection`, `FrameLog`, `ConnLog` (what it logs), `Reports` (spans) | - |
| `lib/transports/tcp_transport`, `tls_transport`, `tls_context` | `Transport`, `TlsSize` (sizes), `ErrQueue`, `TlsObjects` (who frees what), `KeyLog`, `ConnLog`, `AppLog` (what they log) | what shutdown does, options set on OpenSSL objects |
| `lib/router`, `http_response.h` | `Router`, `HandlerLife` (what handlers refer to) | - |
| `lib/static_file_handler`, `file_reader` | `StaticFiles`, `FileSystem`, `StaticRace` (the file system changing between system calls), `StaticLog` (what they log) | - |
| `lib/access_log`, `lib/server_config` | `App`, `Clock` (time stamp) | - |
| `lib/http2_server`, `tcp_listener` | `Server`, `PollServer` (over the poller for systems without epoll), `Process` (set-up of the listener, destruction), `Restart` (a further `start`), `ServerLog` (what they log) | - |
| `lib/pollers/*` | `Poller`, `Os`, `PollCall` (arguments of the system calls) | - |
| `lib/socket_fd` | `SocketFd`, `Os`, `Clock` (`client_ip`) | the text of IPv6 addresses |
| `app/main`, `args`, `test_routes`, `status_page`, `server_stats` | `App`, `Options`, `Process` (`main`), `Startup` (before `run_server`), `MainLog` (what `main` logs), `StatusPage` (HTML), `Average` (arithmetic of doubles) | how CLI11 splits the command line, the style sheet of the status page |
| `app/signal_handler` | `Signals`, `Process` (`SIGPIPE`) | memory ordering |
| `lib/system_clock` | `Clock` | `localtime_r` |
| `app/proc_ctrl`, `telemetry`, `trace_id_flag`, `lib/stop_reason` | `Startup` (results of `prctl` and of setting telemetry up), `Reports` (attributes of spans, client text in log lines), `Restart` (the text of stop reasons) | the exporter |

## Conventions of the model

* Bytes are `UInt8`, byte buffers `List UInt8`, `uint32_t` is `UInt32` wherever wrap-around could matter; lengths are `Nat` (`size_t` overflow is not modelled: all lengths are far below 2^64).
* Undefined behaviour is a distinct outcome (`ub`), never a silent default. An out-of-range `subspan`, a dereferenced empty `std::expected`, an out-of-range array index `pop_back` on an empty container and the use of an object whose lifetime has ended all produce it.
* C++ exceptions are a distinct outcome.
* The application (route handlers) is an arbitrary function on an arbitrary application state; theorems quantify over it.
* The environment (what each `read`, `write`, `accept`, `epoll_wait` call returns, and the clock) is an explicit argument; theorems quantify over all of them. A call of `process()` is given finite lists of results for its reads and writes, after which the transport would block; that is every terminating behaviour of a transport.
* A connection run is a list of `process()` calls, each with its own environment. A ghost trace records what is observable (bytes read, write attempts, frames acted on, responses, log lines). No theorem bounds the length of a run.
* `fill_read_buffer` (lib/http2_conn.cpp:134-171) is a loop over the read results; `internal_process` is a loop with a budget that is proved sufficient (C46), so the budget is not a restriction.
* The server is a fold over loop iterations; each connection of a server is related to a connection on its own by C80, so that the properties of single connections carry over.

## Trusted base

* The Lean kernel and the axioms `propext`, `Classical.choice`, `Quot.sound`, nothing else; which theorem uses which is listed at the end. No own axioms, no `sorry`, no `native_decide`, no `bv_decide`. Table facts and witnesses use `decide +kernel`, which adds no axiom.
* The hand translation from C++ to Lean (cited by file and lines at each definition).
  The model gives what the project's tests expect (`Tests/`), with two exceptions, where the test itself ("prefix 0" of the integer decoder) or the code under test ("invalid first bytes" of the header decoder, C17) dereferences an error; the model calls that undefined.
* The specifications in `Spec/` and at the head of the `Props` files say what the English says.
* The C++ standard library's containers, strings and `std::format` do what the standard says.
* `std::filesystem` and POSIX path resolution as in `Model/FileSystem.lean`. `absolute("")` is the current directory, as in libc++ (libstdc++ throws). Any error other than 'no such file' and 'not a directory' makes them throw. Modelled errors: these two, too many links, a directory that may not be searched, a name that is too long; not the limit on whole paths, nor I/O errors. The file system does not change during a request (but see C117). Opening a directory or a special file for reading is taken to fail.
* The kernel as in `Model/Os.lean`: `close` removes a descriptor from the epoll interest list (descriptors are not duplicated); `accept` never returns a descriptor that is open; `epoll_ctl` fails with `EBADF`, `EEXIST` and `ENOENT` as documented, and may fail for any other reason; `epoll_wait` reports any events.
* OpenSSL's documented return codes; its error queue as in `Model/ErrQueue.lean` (OpenSSL 3); `SSL_select_next_proto` as in `Model/Transport.lean`.
* CLI11: `check` does not modify the value, `IsMember(..., ignore_case)` accepts any capitalisation. `Args::register_opts` binds options to a local variable that is returned by value; both cases, that the copy is left out and that it is not, are in `Model/Options.lean` (how the command line is split into options is not).
* spdlog: `info(std::string)` writes the string without formatting it.

## Not modelled

* Memory exhaustion (`bad_alloc`), compiler and data-race effects, log output other than the access log.
* Cryptography: TLS is a byte pipe with the documented `SSL_read`/`SSL_write`/`SSL_accept` results.

## Plan per property

* **C01 HPACK integer round trip.** Model both codecs on `UInt32`; induct on the number of 7-bit groups. Status: proved.
* **C02 HPACK integer decoding is exact.** Relational spec `IntRep` of section 5.1; prove decode = ok iff a representation with at most five continuation octets exists. Status: proved.
* **C03 HPACK integer encoding is canonical.** Same spec; length comparison against any other representation. Status: proved.
* **C04 The Huffman table is the complete canonical prefix code.** Transcribe the table; recompute the canonical code from the lengths by an independent definition and compare by kernel evaluation over the whole finite table; prefix-freeness and Kraft equality follow for all symbols. Status: proved.
* **C05 Huffman round trip.** Bit-level model of writer, reader and tree; the tree is characterised by the table; induction on the string. Status: proved.
* **C06 Huffman decoding accepts only well-formed data.** False: longer, non-1 or EOS padding is accepted. Witnesses, plus the exact accepted language as the partial result. Status: partial.
* **C07 Huffman decoding is total and bounded.** Structural recursion gives totality; bound from minimal code length 5. Status: proved.
* **C08 Header string literal round trip.** Composition of C01 and C05; false for bytes >= 0x80 where `char` is signed (UB), hence stated on the defined domain plus the unsigned platform. Status: proved.
* **C09 Header string size limit.** Invariant of the decoder over sequences of blocks. Status: proved.
* **C10 Dynamic table accounting.** Invariant by induction on operation lists; `pop_back` on empty is UB in the model and shown unreachable. Status: proved.
* **C11 Dynamic table is the RFC FIFO.** Refinement to `IsLongestFit`, a declarative longest-prefix spec. Status: proved.
* **C12 Dynamic table lookup.** Induction on the table. Status: proved.
* **C13 Header block decoding is sound.** Grammar spec of section 6 with an executable table semantics; induction on the loop. Status: proved.
* **C14 Header block decoding is complete.** Same spec, other direction. Status: proved.
* **C15 Header index validation.** Direct from the model for all tables; get out of range is UB in the model. Status: proved.
* **C16 Header block resource bound.** Induction on the loop; invariant for the maximum. Status: proved.
* **C17 Header block decoding has no undefined behaviour.** False: truncated index. Witness; partial: UB exactly when a first integer of a field is malformed. Status: partial.
* **C18 Decoder stays in step with a smaller peer table.** Simulation: the peer table is a prefix of ours, preserved by every representation. Status: proved.
* **C19 Response headers reach any conforming client.** False: indices above 126 (62 for names) are truncated to one octet. Witness from a plain response sequence; partial under the exact index condition, and under a condition on histories. Status: partial.
* **C20 Encoder respects the client's table limit.** False: limit 65536 fixed. Witness; partial while the total inserted fits 4096. Status: partial.
* **C21 Encoding arbitrary header bytes is defined.** False for signed `char`. Witness; partial for bytes < 0x80 or unsigned `char`; exactly the failing header lists, following the table by the RFC's rules. Status: partial.
* **C22 Frame header codec.** Direct arithmetic on bytes. Status: proved.
* **C23 Setting, GOAWAY and WINDOW_UPDATE codecs.** Same. Status: proved.
* **C24 Frame payload access stays in bounds.** False for PRIORITY payload < 5 and WINDOW_UPDATE < 4. Witness and exact characterisation. Status: partial.
* **C25 Segmentation independence.** Corollary of C26 and a fold characterisation of the output. Status: proved.
* **C26 Frames dispatched are exactly the frames received.** Invariant: received = preface ++ raw frames acted on ++ buffer; raw frames are self-delimiting. Status: proved.
* **C27 Bounded input buffering without stall.** Invariant on the buffer length over the loop. Status: proved.
* **C28 Oversized frames are refused.** State invariant. Status: proved.
* **C29 Preface gate.** State invariant and trace property. Status: proved.
* **C30 Server settings come first.** Invariant on produced bytes. Status: proved.
* **C31 One response per HEADERS frame, on its stream, in order.** Produced bytes = settings ++ fold of per-frame answers; parse of the answers by the frame spec. Status: proved.
* **C32 Response body framing.** Induction on the body. Status: proved.
* **C33 SETTINGS acknowledgement.** Case analysis on process_frame, lifted through C31. Status: proved.
* **C34 Frames without meaning for the server have no effect.** Case analysis on process_frame. Status: proved.
* **C35 Output integrity.** Invariant wire ++ pending = produced for honest transports; false for the TCP transport's partial writes (witness). Status: partial.
* **C36 Blocked writes are retried identically.** Invariant over attempts. Status: proved.
* **C37 A client that does not read cannot make the server buffer more.** Invariant of the loop. Status: proved.
* **C38 Ended connections stay ended.** State order, monotone over steps. Status: proved.
* **C39 Protocol errors are reported to the client.** False: GOAWAY is queued and the connection destroyed. Proved: it is never sent. Status: partial.
* **C40 No output is stranded while waiting for input.** False: preface without further frame. Witness; partial: only then. Status: partial.
* **C41 Handler failures are contained.** Case analysis in process_request, quantified over handlers. Status: proved.
* **C42 Response header shape.** False for requests lacking :path/:method. Witness; partial otherwise. Status: partial.
* **C43 Content-Length is truthful.** Decimal spec and C32. Status: proved.
* **C44 Flow control is respected.** False: no window is kept. Witness; partial: bodies within the initial window of a fresh connection. Status: partial.
* **C45 Requests received before the client closes are answered.** False when EOF is read with the data. Witness; partial: answered when a wait for input separates them. Status: partial.
* **C46 process() terminates.** Fuel bound proven sufficient. Status: proved.
* **C47 process() never executes undefined behaviour.** False via C17/C24/C21; partial: exact set of frames that can cause it, no exception ever leaves for handlers that throw only std::exception. Exactly (`C47_exact`): `Kills` lists the five kinds of frames with the header tables of both directions before them (`After`); `processFrame_ending` proves it for one frame, `iter_ends` carries the ending out of the loop, C26 and C85 exclude every other result. Status: partial.
* **C48 Idle time is measured from the last progress.** Invariant on the time stamp. Status: proved.
* **C49 Route selection.** List specification of first match. Status: proved.
* **C50 Static handler selection.** List specification of last match. Status: proved.
* **C51 Middleware composition.** Fold equation; order shown by an event-logging instance. Status: proved.
* **C52 Custom 404 page.** Case analysis for arbitrary inner handler. Status: proved.
* **C53 Static serving never leaves the configured directory.** File-system model with symlinks. False in general (`missing/../link`): witness. Partial: true without symlinks below the root, true for requests without `..`, true when the path exists. Status: partial.
* **C54 Sanitised paths are normal.** Induction over the normalisation. Status: proved.
* **C55 HEAD mirrors GET.** Case analysis; differs for empty files (HEAD says content-length 0, GET has none). Status: proved.
* **C56 Static status codes.** Case analysis against the file system spec. Status: proved.
* **C57 MIME type by extension.** Spec by last dot. Status: proved.
* **C58 URL to relative path.** String spec. Status: proved.
* **C59 Connection limit.** Invariant over event lists. Status: proved.
* **C60 No descriptor is leaked or confused.** Invariant over event lists with a kernel descriptor table. Status: partial.
* **C61 Connections are isolated.** Frame lemma. Status: proved.
* **C62 Idle connections are reaped, active ones are not.** Filter specification. Status: proved.
* **C63 Stop stops.** Loop semantics. Status: proved.
* **C64 Accept failures do not take the server down.** False: EMFILE etc. throw out of start(). Witness; partial: EAGAIN/EINTR. Status: partial.
* **C65 Socket ownership.** Heap of SocketFd objects; ghost close counter invariant. Status: proved.
* **C66 Poller registration.** Invariant over operations with kernel auto-removal on close. Status: partial.
* **C67 Access log accuracy.** False for repeated pseudo-headers (last wins in the log, first in routing) and for line breaks in the path. Witness; partial otherwise. Status: partial.
* **C68 Request statistics.** Invariant over histories. Status: proved.
* **C69 Uptime formatting.** Arithmetic; injectivity. Status: proved.
* **C70 Configuration validation.** Case analysis; key-existence not checked for the CLI's always-set key (noted). Status: proved.
* **C71 Signal handling.** State machine invariant. Status: proved.
* **C72 Built-in routes appear only when enabled.** Route-table membership. Status: proved.
* **C73 Transport results are classified correctly.** Case analysis on modelled return codes. Status: partial.
* **C74 No input is left in the transport.** Trace property: the last read before a wait reported would-block or an error. Status: proved.
* **C75 ALPN selects a protocol the client offered.** False: the callback claims h2 whatever the client offers. Witness; partial for clients that offer it. Status: partial.
* **C76 HEAD responses have no body.** False for the custom 404 page. Witness; partial without it. Status: partial.
* **C77 Every accepted log level is understood.** False for upper-case names. Witness; partial for lower case. Status: partial.
* **C78 A connection with unsent output is watched for writability.** Invariant of the poller's table over event histories, with C40 for the connection's side. Status: partial.
* **C79 A server that cannot poll does not run.** Witness for all executions: without an epoll instance the loop never accepts. Partial from the invariant of C78. Status: partial.
* **C80 Sharing a server does not change a connection's behaviour.** Relational proof: the shared world's values seen by one connection are recorded in a list and replayed to a connection that is alone. Status: proved.
* **C81 Events reach the connection they were reported for.** Induction over the batch with C61 and C60. Status: proved.
* **C82 A blocked handshake is watched for what it waits for.** Witness with OpenSSL's WANT_WRITE; partial for WANT_READ. Status: partial.
* **C83 Requests reach the application as the client sent them.** Specification as an inductive relation on frames, with the declarative HPACK reading of C13; simulation along the run; uniqueness by induction. Status: proved.
* **C84 End to end: the client reads the responses the handlers returned.** C83 for the requests, C20 for the responses, joined along the run; the condition on names is shown to be needed. Status: partial.
* **C85 A connection is given up only for a reason.** Invariant along the steps: whenever the state is final, a reason is on record; the handshake case directly. Status: proved.
* **C86 close() announces the end of the connection.** Directly from the definition; witness with a request on stream 3. Status: partial.
* **C87 PINGs are answered.** From C31: the types of the frames produced. Status: partial.
* **C88 Field blocks are assembled as RFC 9113 says.** A second specification that assembles blocks as RFC 9113 does; it agrees with that of C83 when there is no padding and no CONTINUATION. Status: partial.
* **C89 Stream identifiers.** From C31: the streams of the responses are those of the requests. Status: partial.
* **C90 No frame exceeds the client's maximum frame size.** From C31, with a response of 16385 one-octet fields as witness (the encoder's output computed by a lemma, not by evaluation). Exactly: the frames fit if and only if no response's header block is longer than 16384 octets. Status: partial.
* **C91 Malformed control frames are refused.** Witness with seven malformed frames; the partial result from C38; exactly which of the forbidden frames are refused: those whose settings or field block cannot be read. Status: partial.
* **C92 The status page shows what happened.** Invariants of the clock, start time, total and per-code table over any sequence of requests. Status: proved.
* **C93 Events are acted on, and sockets closed only for a reason.** Case analysis of handle_connection_events under the server invariant; the reasons from C85 by the replay argument of C80. Status: proved.
* **C94 An iteration of the server reaps, then handles every reported event.** Unfolding of iteration; reaping keeps the poller. Status: proved.
* **C95 Watching for writability ends with the output.** Unfolding of handle_connection_events under the server invariant, with pollSet_eq. Status: proved.
* **C96 A connection whose transport failed for good is given up.** Witness whose write fails after the first flush; induction over the calls; C85. Status: partial.
* **C97 The listening socket is set up completely or not at all.** Cases over the results of the calls. Status: proved.
* **C98 The server leaves no descriptor open.** The invariant of the server holds at whatever event the exception leaves the loop; closing all that is left. Status: proved.
* **C99 The exit status tells what happened.** Cases over main; C63. Status: partial.
* **C100 A broken standard output stops the server.** Both behaviours of the empty write; induction over the calls of the handler. Status: partial.
* **C101 TLS connections do not see each other's errors.** Cases over the results; C73; witness with two connections. Status: partial.
* **C102 Access log entries carry the time and the client's address.** Digits of small numbers; texts of fixed lengths; splitting at dots. Status: proved.
* **C103 One call does a bounded amount of work.** Induction over the frames sent; octets of frames from the invariant of the trace. Status: partial.
* **C104 A client without requests does not keep its connection.** The execution is built by choice from one step; C48. Status: partial.
* **C105 Malformed requests are not handed to the application.** Nine witnesses; the call read off the relation of C83. Status: partial.
* **C106 Kinds of frames sent.** From C31 by uniqueness of framing. Status: proved.
* **C107 Clients may upload as long as the server reads.** From C106. Status: partial.
* **C108 The program is configured as its command line says.** Generic lemmas on writes to different variables; dead object as undefined behaviour. Status: partial.
* **C109 Every OpenSSL object is freed exactly once.** Invariant on heap and history; witness where SSL_set_fd fails. Status: partial.
* **C110 The query does not change what is asked for.** From C72; relative path of target and path. Status: partial.
* **C111 Percent-encoded targets name the octets they stand for.** Witness; induction on decoding; a path that resolves is made of names of existing objects (`resolve_named`), with C134. Status: partial.
* **C112 Table size updates only where and as large as allowed.** Two witnesses; from C13 and the prefix lemma of C15. Status: partial.
* **C113 What a server keeps for its clients is bounded.** Each connection as if alone (C80), then C27, C16 and the write buffer of C37. Status: proved.
* **C114 A client can fetch any files over one connection.** C84 with the fields of C115; witness by evaluation of a run with 63 requests, unreadable by case analysis on the last block. Status: partial.
* **C115 Fields of the program's responses.** Every handler of the program classified; carried along the run by the relation of C83. Status: proved.
* **C116 How large a request becomes.** Bound from the relation of C83 and the lengths of strings; for the amplifier a block for every k, decoded by C14, and a run of a connection with k = 8183. Status: partial.
* **C117 Static files while others change them.** The file system as a view for each system call; witness; C53 at the last view. Status: partial.
* **C118 Only targets below the prefix.** Rewriting; witness. Status: partial.
* **C119 Nothing outside the directory shows.** Witness; resolution of paths below the directory in two file systems. Status: partial.
* **C120 Orderly shutdown.** No step before a GOAWAY leads to the closing state; `process_closing`. Status: partial.
* **C121 Nothing is owed at the end.** Invariant of the write buffer (C33) at each way `process()` can end. Status: proved.
* **C122 No wake-ups for input that is not read.** Induction over the events with `process_stuck`; C78 for what the poller is asked. Status: partial.
* **C123 Responses of any size over TLS.** Arithmetic modulo 2^32; `request_process` for a body of 2^31 octets (symbolic), then C96. Status: partial.
* **C124 Every request is in the access log.** Induction over the calls. Status: partial.
* **C125 Settings are in force before the server serves.** Case analysis; witnesses. Status: partial.
* **C126 The status page can be read.** The inserted texts contain no `<`; cutting at `<`. Status: proved.
* **C127 Spans describe the requests.** Cases of `Acts`. Status: partial.
* **C128 Log messages cannot be forged.** Explicit target; membership of the line feed. Status: partial.
* **C129 A conforming client is served.** `iter_fails` and the tables of C83 give that the call returns; C85 lists the reasons for giving up and each is excluded; what a call uses of the transport (`Uses`) gives that all input was read. Status: proved.
* **C130 A conforming client of a shared server is served.** C129 for the replayed application of C80, which after the worlds of the past continues with the shared world, so that a call does exactly the same whatever its outcome (`Sim.live_process`); the server's part from C93, C61 and C62, by induction over the history. Status: proved.
* **C131 A conforming client fetches files.** C130 with the worlds the handlers lead to, then C114 with the lengths of C115 on the replayed application; the program never changes the files, so each answer is that of C132 (or C53) for the files it started with. Status: proved.
* **C132 A file answers to its name.** Relative path computed from the target; by induction on the names path resolution either reaches the name or fails without a loop, and weakly_canonical gives back the same path in both cases. Status: proved.
* **C133 A frame is as long as it says.** C31 in one direction; in the other a frame on the wire has at most 2^24 - 1 octets. Witness: a field of 2^25 octets, encoded symbolically, at least five bits each. The program by the field lists of C115. Status: partial.
* **C134 A target is served exactly when it resolves.** Both directions through weakly_canonical: for a path that resolves it gives the place it resolves to, which is then opened under its own name; for one that does not, without '..', its result does not resolve either. For all targets weakly_canonical is shown to be a relation that takes '.' and '..' out in any order (`OpensAs`). The counterexample is evaluated. Status: partial.
* **C135 Room for new clients.** A turn of 128 iterations in which each client sends one frame without meaning keeps all connections younger than the timeout; the 129th client is closed (C59). Turns are chained for ever. A server held in this way is evaluated. Room: reaping is a filter of the connections, and C62 says which go. Status: partial.
* **C136 Cancelled requests.** Induction over the steps of a run: what one step produces is on stream 0 or on the stream of the HEADERS frame it acts on; the run is split at the step that acted on the frame. With C37 for what was produced before. The counterexample is evaluated. Status: partial.
* **C137 Requests with content and trailers.** Each response follows the HEADERS frame it answers (Steps.origin); the streams of the responses are those of the HEADERS frames acted on, in order (C31). The counterexamples are evaluated. Status: partial.
* **C138 What each request is answered with.** The middleware adds to the target of `get_handler` only the page for 404; the target is one of four (C72). What the handler of files answers follows from C134 and C56. Earlier calls change neither the files nor the process flag, so the answer of C131 is the one for the files at the start. Status: proved.
* **C139 Silent clients leave on time.** `process_last`: a call of `process()` leaves the time of the last progress or sets it to a clock value the transport reported, followed through flush, fill, dispatch and the loop. After `reap_idle_connections` at `b` or later every connection's last progress is within five seconds of `b`; events at `b` or later keep that; the next round is at most `25 ms + work` later. The example runs 202 rounds with a silent client. Status: proved.
* **C140 Repeated fields take one octet each.** `C140_field` follows the five branches of `encode` for one field, with the lengths of what they write. A block for which there is room adds its fields in front without evicting (`encodeBlock_room`), so each is found again; fields that are found cost one octet (`encodeBlock_known`). The refutation is a value of 65536 octets. Status: partial.
* **C141 TLS secrets go only where they were asked for.** Induction over the calls, with the files' contents as a function of their names; the lines for a file are filtered from the calls independently of the model. Status: proved.
* **C142 A stopped server ends soon.** A call at `t` lies in the iteration that begins at `b ≤ t` and ends at most 25 ms plus `work` after `b`; the flag it sets is not reset (`events_terminated`, `reap_same`), so no further iteration begins. Status: proved.
* **C143 The average latency shown is the average latency.** Relative error 2^-53 of each division (scaling by powers of two, `roundEven_near`), exactness of integers below 2^53, then C92. Status: partial.
* **C144 The numbers on the status page agree.** Sum over distinct keys of the counts of C92. Status: partial.
* **C145 A handler can be used as long as the router.** A model of the objects the lambda refers to; induction over later operations; the loop over static handlers related to that of the model of the router. Status: partial.
* **C146 A server can be started again.** The flag survives; the loop's condition. Status: partial.
* **C147 The log tells why the server stopped.** Induction over the iterations with the invariant of servers; the texts are compared. Status: proved.
* **C148 The server does the same without epoll.** Simulation: a relation between the two servers kept by every event, iteration and run; events without bits change nothing, so they are left out of the course with epoll. Status: proved.
* **C149 A connection does what the client's octets say, and nothing else matters.** The main invariant of connections (what was done is a function of the frames acted on, which are the leading frames received) and comparability of two readings of one stream. Status: proved.
* **C150 Only what lies outside is refused.** An error of a beginning of a path is the error of the path, so weakly_canonical fails exactly with the error of the whole path; the rest as in C134. The witness is evaluated. Status: partial.
* **C151 The access log can be read.** Cutting at the first space, quotation mark and line feed; for the refutation the target is written down. Status: partial.
* **C152 Stream identifiers are copied to the answer, and mean nothing else.** Acting on a frame that differs in the stream gives the same tables, world and events but for streams; by induction over the frames acted on. Status: proved.
* **C153 Frames that the state of their stream does not allow are refused.** Frames of other types can be left out of the frames acted on; for the refutation a run is given. Status: partial.
* **C154 What is sent is in proportion to what was received.** Sizes of the events of acting on a frame, summed over the frames acted on. Status: proved.
* **C155 Flags that a type of frame does not define are ignored.** The relation between frames used for C152 leaves out all flags but those two; the streams of the responses are those of the HEADERS frames. Status: proved.
* **C156 Compression does not make header blocks larger.** Lengths of integers and of Huffman coded strings, summed over the fields; the invariant that every block was made by the encoder carries it to connections. Status: partial.
* **C157 A transport that has failed is left alone.** The iterations of `process()` for reads (an iteration whose read ends the connection is the last one, and the server makes no further call); an invariant of steps for writes. Status: partial.
* **C158 The server keeps to the states of streams when it sends.** A dialogue interleaves the frames acted on with the frames the octets produced between them consist of; a course of a connection has exactly one (`Dialogue.det`). Two invariants of steps, one for each direction. Status: partial.
* **C159 The client's settings are checked and applied.** Served lists of frames can be reduced to their HEADERS frames (`Served.headers`), then as for C153. Status: partial.
* **C160 Header fields are kept out of the log.** `Explains` follows the decoder through its cases: none above debug if it succeeds, one reason if it fails (`blockLines_explains`); `frameLines_loud` for frames. Status: partial.
* **C161 Refusals are explained in the log.** From `frameLines_loud`, whose reasons are compared with the grammar of blocks (`StrFault`, `FieldFault`); that other lines are not reasons, by comparing beginnings (`not_reason`). Status: proved.
* **C162 No complaints about calls that need not fail.** Cases of `EvStep`; for the converse the poller's table agrees with the kernel's and all connections are registered (C60). Status: partial.
* **C163 Connections can be counted in the log.** Induction over the run with `Counted` for single events; lines are told apart by their level and first characters. Witness evaluated. Status: partial.
* **C164 The log says why a connection was given up.** `Told` is kept along `flush`, `fillLoop`, `frameCase`, `dispatch` and the loop, with C161 for frames and C85 for why a call gives up. Status: proved.
* **C165 The log tells attempts to leave the directory.** As C150: `sanitizeLines_eq` beside `sanitizePath_eq`, then the three outcomes of `weaklyCanonical`. Status: proved.
* **C166 The instance id stands for the number drawn.** Digit by digit: the first k digits stand for the number divided by 16^(8-k). Status: proved.
* **C167 The log gives the sizes of the dynamic tables.** `insert_spec` for the table after the insertion; two numbers with the same decimal notation are equal; `Steps.tables` for the accounting of both tables on a connection. Status: partial.
* **C168 The log tells each frame once and truly.** The cases of `tryReadFrame`, and those of `processFrame` by `Acts`; digits of a flag octet as in C166. Status: partial.
* **C169 The log tells all changes of state.** `Follows s lines s'` is kept by putting calls one after another; each function of a connection follows its lines; all other lines are not about a change because their texts begin otherwise. Status: proved.
* **C170 The log tells all octets read and written.** As C169, with the events of the trace in place of the states; the digits after "read " are skipped, so that "read 3 settings" is not taken for such a line. Status: proved.
* **C171 The log tells what each header representation was.** A story is a list of representations with their octets and lines, the table changing from one to the next. The lines are followed through the decoder along the proof that it accepts each representation; strings that are read write no lines since all their lines are errors. Where the decoder stops, completeness of the decoder shows that no representation accepted begins there. Status: proved.
* **C172 The log tells all frames sent.** As C170, with the frames on the wire of what is produced in place of the reads and writes; the pieces of a body are followed through the loop that cuts it. Status: proved.
* **C173 Nobody else writes the connection's lines.** `Model/AppLog.lean` says what the handlers log for a request and what the transports log for their system calls. No such line begins as those of C169, C170 and C172 do, so these apply. Status: proved.
* **C174 How long the pollers wait, and how much they report.** Residues modulo 2^32. For the buffer: at most 129 descriptors are on the interest list (C59), so a buffer for 256 events is never full; a server's history that counts the full buffers. Status: partial.
* **C175 Every message tells which part wrote it.** An author function on texts by lists of first words; each part's lines are checked against it; the connection's lines in a call are those that remain when handlers and transport log nothing. Status: proved.
* **C176 What --log-level leaves in the log.** The names of the levels in order; a message is wanted if its level is the one set or comes after it. The last part from C161. Status: partial.
* **C177 The log can be read back.** Injectivity of the file as a function of the entries, by cutting at the closing brackets and line breaks. That messages do not begin with a bracket comes from C175's list of first words. Status: partial.
* **C178 The log tells how the program ended.** The messages of main follow processExit; each of them but the last neither is critical nor begins like "exiting". Status: partial.
* **C179 The log announces what is served.** From the routes of C72 and the messages of main; which message is which is told by first letters, and the prefix ends at the first quote. Status: partial.

## Axioms of the property theorems

* no axioms: `C04_codes_fit`, `C04_kraft`, `C73_tls_refuted`, `Props.C77_refuted`, `Props.C100_refuted`, `Props.C100_client_partial`
* `Classical.choice`, `Quot.sound`, `propext`: `C01_int_roundtrip`, `C02_int_decode_exact`, `C02_int_decode_error`, `C03_int_encode_rejects`, `C03_int_encode_canonical`, `C08_string_roundtrip`, `C09_string_limit`, `C10_accounting`, `C11_fifo`, `C12_find`, `C12_find_name`, `C13_decode_sound`, `C14_decode_complete`, `C15_valid_indices`, `C15_indexed_rejected`, `C15_literal_rejected`, `C17_ub_exact`, `C16_resource_bound`, `C17_no_ub_partial`, `C18_smaller_peer`, `C19_refuted_name`, `C19_refuted_full`, `C19_block_partial`, `C19_connection_partial`, `C20_refuted`, `C20_client_limit_partial`, `C21_encode_defined_partial`, `C21_exact`, `C22_header_roundtrip`, `C22_header_reserialize`, `C22_header_layout`, `C23_setting_roundtrip`, `C23_goaway_roundtrip`, `C23_window_update_roundtrip`, `C23_parse_layout`, `C24_in_bounds_partial`, `Sim.C25_segmentation`, `Sim.C26_frames`, `Sim.C26_frames_complete`, `Sim.C27_bounded`, `Sim.C27_no_stall`, `Sim.C28_oversized`, `Sim.C29_preface_gate`, `Sim.C30_settings_first`, `Sim.C31_replies`, `Sim.C32_body_frames`, `Sim.C33_settings_ack`, `Sim.C34_no_effect`, `Sim.C34_inert`, `Sim.C35_accepted`, `Sim.C35_tls`, `Sim.C35_tcp_partial`, `Sim.C36_retry`, `Sim.C37_bounded_output`, `Sim.C38_ended_events`, `Sim.C38_ended`, `Sim.C39_refuted`, `Server.C39_server`, `Sim.C39_one_more_call_partial`, `Sim.C40_nothing_stranded_partial`, `Sim.C74_drained`, `Sim.C41_status`, `Sim.C42_fields_partial`, `Sim.C43_content_length`, `Sim.C44_octets`, `Sim.C44_streams`, `Sim.C44_ignored`, `Sim.C44_refuted`, `Sim.C44_small_partial`, `Sim.C45_refuted`, `Sim.C45_answered_partial`, `Sim.C46_terminates`, `Sim.C46_budget`, `Sim.C46_frames`, `Sim.C47_defined_partial`, `Sim.C47_caused`, `Sim.C47_exact`, `Sim.C47_returns`, `Sim.C48_idle`, `C73_tls_partial`, `Props.C50_cases`, `Props.C52_app`, `Props.C53_inside_partial`, `Props.C53_existing`, `Props.C54_normal`, `Props.C55_head`, `Props.C56_codes`, `Props.C57_mime`, `Sim.C67_entries`, `Sim.C67_entry_partial`, `Props.C68_counts`, `Props.C68_app`, `Props.C69_parts`, `Props.C69_readable`, `Props.C69_injective`, `Props.C76_head_partial`, `Props.C77_check`, `Props.C77_enum`, `Props.C77_lower_partial`, `Server.C59_limit`, `Server.C59_accept`, `Server.C60_descriptors`, `Server.C60_registered_partial`, `Server.C61_isolated`, `Server.C62_reap`, `Server.C62_iteration`, `Server.C63_runs`, `Server.C63_runs_start`, `Server.C64_refuted`, `Props.C65_ownership`, `Props.C65_none_left`, `Props.C66_agrees_partial`, `Props.C66_poll_table`, `Server.C78_watched_partial`, `Server.C79_listens_partial`, `Server.C80_alone`, `Server.C80_call`, `Server.C81_batch`, `Server.C82_refuted`, `Server.C82_handshake_partial`, `Sim.C83_served`, `Sim.C83_determined`, `Sim.C83_refused`, `Sim.C84_refuted`, `Sim.C84_end_to_end_partial`, `Sim.C85_reason`, `Sim.C85_handshake`, `Sim.C85_given_up`, `Sim.C86_refuted`, `Sim.C86_close`, `Sim.C86_last_partial`, `Sim.C87_refuted`, `Sim.C87_never`, `Sim.C87_answered_partial`, `Sim.C88_refuted_padding`, `Sim.C88_refuted_continuation`, `Sim.C88_assembled_partial`, `Sim.C89_refuted`, `Sim.C89_streams_partial`, `Sim.C90_refuted`, `Sim.C90_sizes_partial`, `Sim.C90_exact`, `Sim.C91_refused_partial`, `Sim.C91_exact`, `Props.C92_status`, `Server.C93_event`, `Server.C93_closed`, `Server.C93_reason`, `Server.C94_iteration`, `Server.C95_watched`, `Sim.C96_refuted`, `Sim.C96_stuck_partial`, `Sim.C96_given_up_partial`, `Props.C97_listener`, `Server.C98_closed`, `Server.C98_thrown`, `Props.C99_success`, `C101_empty_partial`, `Props.C102_timestamp`, `Props.C102_address`, `Props.C102_line`, `Sim.C103_paid_partial`, `Sim.C104_refuted`, `Sim.C104_silent_partial`, `Sim.C105_called_partial`, `Sim.C105_reached`, `Sim.C106_kinds`, `Sim.C107_refuted`, `Props.C108_wanted_partial`, `Props.C109_owned_partial`, `Props.C110_routes`, `Props.C111_never`, `Props.C112_limit_partial`, `Server.C113_bounded`, `Sim.C114_client_partial`, `Sim.C114_lengths_partial`, `Sim.C115_fields`, `Sim.C115_names`, `Sim.C115_length`, `Sim.C116_refuted`, `Sim.C116_amplified`, `Sim.C116_bound_partial`, `Props.C117_inside_partial`, `Props.C117_failed`, `Props.C119_outside_partial`, `Sim.C120_refuted`, `Sim.C120_closing_partial`, `Sim.C121_nothing_owed`, `Server.C122_refuted`, `Server.C122_read_partial`, `Sim.C123_refuted`, `C123_wrote`, `Props.C124_refuted`, `Props.C124_exact_partial`, `Props.C125_in_force_partial`, `Props.C126_readable`, `Props.C126_readable_average`, `Sim.C129_kept`, `Sim.C129_answered`, `Sim.C129_program`, `Server.C130_kept`, `Server.C130_answered`, `Server.C130_life`, `Server.C130_program`, `Server.C131_fetched`, `Server.C131_file`, `Server.C131_resolved`, `Props.C132_found`, `Sim.C133_refuted`, `Sim.C133_exact`, `Server.C133_program_partial`, `Props.C134_exact_partial`, `Props.C134_exact`, `Server.C135_refuted`, `Server.C135_hold`, `Server.C135_room_partial`, `Sim.C136_acted_partial`, `Sim.C136_caused`, `Sim.C137_whole_partial`, `Props.C138_answer`, `C138_client`, `Props.C138_found`, `Server.C139_recent`, `Server.C139_leaves`, `C140_field`, `C140_distinct`, `C140_repeat_partial`, `C140_refuted_big`, `C140_refuted`, `KeyLog.C141_keylog`, `Server.C142_stops_in_time`, `Props.C143_average_partial`, `Props.C143_refuted`, `Props.C143_hundredths`, `Props.C144_agree_partial`, `Server.C146_harmless_partial`, `Server.C147_reason`, `PollServer.C148_same`, `PollServer.C148_serves`, `PollServer.C148_watches`, `Sim.C149_determined`, `Props.C150_forbidden`, `Props.C150_notFound`, `Props.C150_noBase`, `Props.C150_plain_partial`, `Props.C151_refuted`, `Props.C151_file_partial`, `Sim.C152_streams`, `Sim.C153_states_partial`, `Sim.C154_size`, `Sim.C154_bound`, `Sim.C155_undefined`, `Sim.C155_only`, `Sim.C156_responses`, `Sim.C157_read_partial`, `Sim.C157_write_partial`, `Sim.C158_refuted`, `Sim.C158_states_partial`, `Sim.C158_exact_partial`, `Sim.C159_settings_partial`, `Sim.C160_loud_partial`, `Sim.C160_same_partial`, `Sim.C161_refused`, `Sim.C161_only`, `Server.C162_refuted`, `Server.C162_event_partial`, `Server.C162_reap_partial`, `Server.C163_refuted`, `Server.C163_debug_partial`, `Sim.C164_why`, `Sim.C164_only`, `Props.C165_told`, `Props.C165_attempts`, `Props.C165_noBase`, `Props.messages_of_lines`, `Props.C166_digits`, `Props.C166_distinct`, `Props.C166_shown`, `C167_refuted`, `C167_entry_partial`, `C167_alone_partial`, `C167_listing`, `Sim.C167_before`, `Sim.C167_after`, `Sim.C168_refuted`, `Sim.C168_told_partial`, `Sim.C169_process`, `Sim.C169_all`, `Sim.C170_process`, `Sim.C170_all`, `Sim.C170_totals`, `C171_accepted`, `C171_refused`, `C171_position`, `Sim.C172_process`, `Sim.C172_all`, `Sim.C173_foreign`, `Sim.C173_served`, `Server.C174_buffer`, `Sim.C175_call`, `Sim.C176_written`, `Sim.C176_nested`, `Sim.C176_off`, `Sim.C176_warn_partial`, `Sim.C176_error`, `Sim.C177_somebody`, `Props.C179_announced`
* `Quot.sound`, `propext`: `C04_prefix_free`, `C05_huffman_roundtrip`, `C06_not_strict`, `C06_accepted_language_partial`, `C07_huffman_total_bounded`, `C17_ub_exists`, `C21_ub_exists`, `C23_read_settings`, `C23_settings_unique`, `C24_out_of_bounds`, `Sim.C35_tcp_refuted`, `Sim.C39_unsent`, `Sim.C40_refuted`, `Sim.C41_contained`, `Sim.C42_refuted`, `Sim.C47_refuted`, `C73_tcp`, `Props.C49_route`, `Props.C49_none`, `Props.C50_static`, `Props.C51_always`, `Props.C52_any`, `Props.C53_refuted`, `Props.C56_status`, `Props.C58_relative`, `Sim.C67_refuted`, `Props.C70_start`, `Props.C70_any`, `Props.C71_killed`, `Props.C72_routes`, `Props.C76_refuted`, `Server.C60_refuted`, `Server.C61_unknown`, `Server.C63_stops`, `Server.C64_accept_partial`, `Props.C66_refuted`, `Props.C66_bits`, `Props.C66_reports`, `Props.C66_room`, `Props.C66_errors`, `Props.C66_poll_reports`, `Server.C78_refuted`, `Server.C79_refuted`, `Sim.C91_refuted`, `Server.C94_exception`, `Props.C99_refuted`, `Props.C99_status_partial`, `Server.C101_refuted`, `Props.C102_reading`, `Sim.C103_refuted`, `Sim.C105_refuted`, `Sim.C107_ignored_partial`, `Props.C108_defaults`, `Props.C110_refuted`, `Props.C110_static_partial`, `Props.C111_refuted`, `Props.C111_plain_partial`, `Props.C112_refuted`, `Sim.C114_refuted`, `Props.C117_refuted`, `Props.C117_unchanged`, `Props.C118_refuted`, `Props.C118_below_partial`, `Props.C119_refuted`, `C123_int`, `C123_exact_partial`, `C123_too_large`, `Props.C125_refuted`, `Props.C125_process`, `Props.C125_before_try`, `Sim.C127_refuted`, `Sim.C127_span_partial`, `Props.C128_refuted`, `Props.C128_line_partial`, `Props.C134_refuted`, `Sim.C136_refuted`, `Sim.C137_refuted`, `Server.Loop.run`, `Props.C144_refuted`, `HandlerLife.C145_usable_partial`, `HandlerLife.C145_owned`, `HandlerLife.C145_request`, `HandlerLife.C145_refuted`, `Server.C146_refuted`, `Props.C150_refuted`, `Props.C151_reading`, `Sim.C153_refuted`, `C156_refuted`, `C156_string`, `C156_block_partial`, `C156_bound`, `Sim.C157_refuted`, `Sim.C159_refuted`, `Sim.C160_refuted`, `Sim.C160_shown`, `Sim.C160_kept`, `Sim.C161_preface`, `C164_tcp`, `C164_tls`, `Sim.C168_request`, `Sim.C169_close`, `Sim.C173_calls`, `Server.C174_refuted`, `Server.C174_timeout_partial`, `Server.C174_server`, `Server.C174_unused`, `Sim.C175_others`, `Sim.C175_close`, `Server.C175_server`, `Sim.C176_refuted`, `Sim.C177_refuted`, `Props.C178_refuted`, `Props.C178_ends_partial`, `Props.C178_levels`, `Props.C179_refuted`, `Props.C179_kept_partial`
* `propext`: `C04_table_is_canonical`, `C04_prefix_free_eos`, `C04_tree_builds`, `C73_alpn`, `C75_refuted`, `C75_alpn_partial`, `Props.C51_order`, `Props.C71_signals`, `C101_poisoned`, `C101_left`, `Props.C108_refuted`, `Props.C109_refuted`, `Props.C109_context`, `Props.C128_header`, `KeyLog.C141_not_asked`, `C169_reads`, `Sim.C177_read_partial`
