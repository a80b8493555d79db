# Formal model of async-std-utp in Lean 4: design

(Written before the proofs; kept current as the model grows.)

## 1. How the code is modelled

The whole library (`src/*.rs`, without tests, examples and benches) is written as an executable Lean program over an explicit *world*.

* **Bytes and integers.** `u8/u16/u32/u64` are `BitVec n`, so wrap-around is exactly Rust's.
  `i32` (`rtt`, `rtt_variance`) and `i64` (`Delay`) are `Int`; C11 proves that the `i32` values stay in
  range, so this loses nothing. `usize` is `Nat`.
* **Panics are values.** A computation ends as `ok a`, `err e`, `panic` or `pending`. Overflow
  checks are a parameter `checks : Bool` of the environment: `true` is a debug build (overflow
  panics), `false` a release build (overflow wraps). Index errors, `unwrap` on `None` and `assert!`
  panic in both.
* **The outside world is a set of oracles** (`Env`): the k-th reading of the clock, the k-th random
  number, the outcome of the k-th UDP receive (a datagram, an OS error, or "never": the future is
  still pending or was dropped; the timeout that was armed decides what a wait without a datagram means), the outcome of the k-th UDP send
  (ok, error, never), and the results of the two floating point computations (the EWMA cast to i64, the new window size cast to u32).
  Theorems quantify over *all* oracles, which covers every network schedule, every clock and every rounding behaviour.
* **Floating point.** `Verif/Float.lean` models the two computations in IEEE double precision: a finite double is a rational number, and every operation
  rounds the exact result to the nearest representable number, ties to even (`rne`; specified and proved in `Spec/Float.lean`, `rne_nearest`). Infinities, NaN and
  negative zero do not arise for the arguments that occur. Theorems about the values (C13, C59–C61) fix the two oracles to these functions; all others hold for every oracle.
* **Observable effects** are a log in the world: every datagram handed to the OS with its destination and
  every wait with the timeout that was armed.
* **Async.** `&mut self` methods run one after another, so an operation is one deterministic function
  `World -> Res x World`. Cancelling a future at an await point is the outcome `pending`, which keeps the state
  reached so far. The unbounded loops and the recursion recv -> handle_packet -> handle_state_packet ->
  resend -> send_packet -> recv are cut by a fuel argument; running out of fuel is also `pending`. Theorems
  hold for every amount of fuel; nothing is bounded by it. More fuel does not change the result of a call that ended (`C57_fuel`), and a call
  ends whenever the network falls silent (`C57_partial`).
* **Stream layer.** The four future slots of `UtpStream`, the socket lock and the polls are a second small
  state machine over the same world.
* **Two parties.** A connection between two sockets is two executions, each in its own environment, and the condition that
  every datagram that one environment delivers was handed to the operating system by the other side (`Delivers`). The network may lose, repeat,
  reorder and delay, but not forge. Which of the two ran when is not recorded; so the theorems cover every interleaving (and more). The
  condition speaks about all deliveries of the environment, also those after the end of the execution; these can be taken to be "never".

### Files

| file | contents |
|---|---|
| `Verif/Basic.lean` | integers, results, error kinds (`src/error.rs`) |
| `Verif/Time.lean` | `src/time.rs`, `src/util.rs` |
| `Verif/Bits.lean` | `src/bit_iterator.rs` |
| `Verif/Packet.lean` | `src/packet.rs` |
| `Verif/Float.lean` | double precision arithmetic of `src/util.rs: ewma`, `filtered_current_delay`, `update_congestion_window` |
| `Verif/World.lean` | environment, world, the monad `M` |
| `Verif/Socket.lean` | `src/socket.rs` (UtpSocket, UtpListener, Incoming) |
| `Verif/StreamDrop.lean` | the last clone of a stream going out of scope: slots dropped in order, then the socket |
| `Verif/Wakers.lean` | the tasks that poll a stream: which task's waker a future has, who waits |
| `Verif/Spec/Lossy.lean` | what a network that loses datagrams is |
| `Verif/Lemmas/Lossy*.lean, Lemmas/FuelLog.lean` | the sender, the reader, and both coupled, over such a network |
| `Verif/Spec/Echo.lean` | the program of examples/echo-server.rs and a client |
| `Verif/Lemmas/Echo.lean, Verif/Props/Echo.lean` | C78 |
| `Verif/Spec/Turn.lean` | when a packet may still wait |
| `Verif/Props/Turn.lean` | C79 |
| `Verif/Spec/Advert.lean` | the window and the type of a datagram, byte by byte |
| `Verif/Props/Advert.lean` | C80 |
| `Verif/Spec/Piggyback.lean` | what a socket keeps about the data it sends |
| `Verif/Props/Piggyback.lean` | C81 |
| `Verif/Props/Memory.lean` | C82 |
| `Verif/Spec/Source.lean` | the same datagrams from other addresses |
| `Verif/Lemmas/Source.lean` | two runs side by side |
| `Verif/Props/Source.lean` | C83 |
| `Verif/Spec/Backoff.lean` | how many receives timed out |
| `Verif/Lemmas/Backoff.lean` | how the timeout grows, function by function |
| `Verif/Props/Backoff.lean` | C84 |
| `Verif/Spec/Stamp.lean` | the time fields of datagrams and what they should be |
| `Verif/Lemmas/Stamp.lean` | the time fields of the packets the code makes |
| `Verif/Lemmas/Timely.lean` | a program logic, and the time fields through all functions |
| `Verif/Props/Stamp.lean` | C85, C86 |
| `Verif/Props/EndOfStream.lean` | C87 |
| `Verif/Spec/Download.lean` | vocabulary of C88 |
| `Verif/Lemmas/Download.lean` | lemmas of C88 |
| `Verif/Props/Download.lean` | C88 |
| `Verif/Spec/Oblivious.lean` | vocabulary of C89 |
| `Verif/Lemmas/Alike.lean` | packets that differ only in payloads |
| `Verif/Lemmas/Oblivious.lean` | two-run proof for C89 |
| `Verif/Props/Oblivious.lean` | C89 |
| `Verif/Spec/Nesting.lean` | vocabulary of C90 |
| `Verif/Lemmas/Nesting.lean` | on what the outcome of a receive depends |
| `Verif/Props/Nesting.lean` | C90 |
| `Verif/Spec/Karn.lean` | vocabulary of C91 |
| `Verif/Props/Karn.lean` | C91 |
| `Verif/Spec/Resend.lean` | signs of loss, vocabulary of C92 |
| `Verif/Lemmas/Resend.lean` | without a sign of loss nothing is sent twice, through all functions |
| `Verif/Props/Resend.lean` | C92 |
| `Verif/Spec/AckOrder.lean` | vocabulary of C93 and C94 |
| `Verif/Lemmas/AckOrder.lean` | the acknowledgement number, through all functions |
| `Verif/Props/AckOrder.lean` | C93 |
| `Verif/Props/AckFull.lean` | C94 |
| `Verif/Spec/Oversize.lean` | vocabulary of C95 |
| `Verif/Props/Oversize.lean` | C95 |
| `Verif/Spec/Storm.lean` | vocabulary of C96 |
| `Verif/Props/Storm.lean` | C96 |
| `Verif/Spec/Readable.lean` | vocabulary of C97 |
| `Verif/Props/Readable.lean` | C97 |
| `Verif/Spec/GivesUp.lean` | vocabulary of C98 |
| `Verif/Props/GivesUp.lean` | C98 |
| `Verif/Spec/Reported.lean` | vocabulary of C99 |
| `Verif/Props/Reported.lean` | C99 |
| `Verif/Spec/Size.lean` | vocabulary of C100 |
| `Verif/Props/Size.lean` | C100 |
| `Verif/Spec/Bogus.lean` | vocabulary of C101 |
| `Verif/Props/Bogus.lean` | C101 |
| `Verif/Spec/Halving.lean` | vocabulary of C102 |
| `Verif/Props/Halving.lean` | C102 |
| `Verif/Props/EmptyBuffer.lean` | C103 |
| `Verif/Spec/Jammed.lean` | C104 |
| `Verif/Props/Jammed.lean` | C104 |
| `Verif/Props/Crossing.lean` | C105 |
| `Verif/Text.lean` | the texts of log messages (C106) |
| `Verif/Spec/Text.lean` | C106 |
| `Verif/Props/Text.lean` | C106 |
| `Verif/Props/CloseCross.lean` | C107 |
| `Verif/Spec/StreamLossless.lean` | C108 |
| `Verif/Props/StreamLossless.lean` | C108 |
| `Verif/Props/CloseLoss.lean` | C109 |
| `Verif/Spec/OtherClock.lean` | executions that differ only in the clock |
| `Verif/Lemmas/OtherClock.lean` | two runs with two clocks |
| `Verif/Props/OtherClock.lean` | C110 |
| `Verif/Spec/OtherId.lean` | executions that differ only in the connection identifiers |
| `Verif/Lemmas/OtherId.lean` | two runs with two sets of identifiers |
| `Verif/Props/OtherId.lean` | C111 |
| `Verif/Spec/OtherStart.lean` | executions that differ only in our sequence numbers |
| `Verif/Lemmas/OtherStart.lean` | two runs with shifted sequence numbers |
| `Verif/Lemmas/OtherStartLow.lean` | the same when the numbers do not wrap around |
| `Verif/Props/OtherStart.lean` | C112 |
| `Verif/Spec/PeerStart.lean` | executions that differ only in the sequence numbers of the peer |
| `Verif/Lemmas/PeerStart.lean` | two runs with shifted numbers of the peer |
| `Verif/Props/PeerStart.lean` | C113 |
| `Verif/Spec/OtherHints.lean` | executions that differ only in the times and windows the peer reports |
| `Verif/Lemmas/OtherHints.lean` | two runs with other times and windows of the peer |
| `Verif/Props/OtherHints.lean` | C114 |
| `Verif/Spec/PeerTimes.lean` | executions that differ only in the times in the datagrams of the peer |
| `Verif/Lemmas/PeerTimes.lean` | two runs with other times of the peer |
| `Verif/Props/PeerTimes.lean` | C115 |
| `Verif/Spec/SmallWindow.lean` | executions that differ in the times and small windows of the peer |
| `Verif/Lemmas/SmallWindow.lean` | two runs with other times and small windows of the peer |
| `Verif/Props/SmallWindow.lean` | C116 |
| `Verif/Spec/OtherExts.lean` | executions that differ only in extensions that are not selective acknowledgements |
| `Verif/Lemmas/OtherExts.lean` | two runs with other extensions |
| `Verif/Props/OtherExts.lean` | C117 |
| `Verif/Spec/Unread.lean` | executions that differ only in what is never looked at |
| `Verif/Lemmas/Unread.lean` | two runs that differ only in what is never looked at |
| `Verif/Props/Unread.lean` | C118 |
| `Verif/Props/Looked.lean` | C118, sharpness |
| `Verif/Spec/OtherLimit.lean` | executions that differ only in the limit of retries |
| `Verif/Lemmas/OtherLimit.lean` | two runs that differ only in the limit of retries |
| `Verif/Props/OtherLimit.lean` | C119 |
| `Verif/Spec/SplitWrite.lean` | what happens without waiting |
| `Verif/Lemmas/SplitWrite.lean` | sending without waiting does not depend on what is queued behind |
| `Verif/Props/SplitWrite.lean` | C120 |
| `Verif/Spec/Dull.lean` | executions that differ only in the own address and the time of the last acknowledgement |
| `Verif/Lemmas/Dull.lean` | two runs that differ only in these |
| `Verif/Props/Dull.lean` | C121 |
| `Verif/Lemmas/SplitRead.lean` | reading a packet in pieces |
| `Verif/Props/SplitRead.lean` | C122 |
| `Verif/Drop.lean` | `impl Drop for UtpSocket`, end of scope of `connect` and `accept` |
| `Verif/UtpStream.lean` | `src/stream.rs` and `Incoming::poll_next` |
| `Verif/Threads.lean` | several threads inside the polls of `src/stream.rs`, step by step |
| `Verif/Listener.lean` | `UtpListener::accept` as a future with three awaits, several at a time; `Incoming` over time |
| `Verif/Samples.lean` | concrete environments for examples and counterexamples; not part of the model |
| `Verif/Cases/Connections.lean` | the theorems about whole connections (C67, C68, C77, C78, C97) applied to concrete environments, from `connect` and `accept` on |
| `Verif/Cases/Arrivals.lean` | the theorems about one arriving packet (C27, C29, C30, C31, C43, C44, C63, C80) applied to reachable sockets |
| `Verif/Cases/CrateTests.lean` | the tests of the crate replayed on the model (tests of the model, not proofs) |
| `Verif/Spec/*.lean` | vocabulary of the statements; does not mention the model's helpers |
| `Verif/Lemmas/*.lean` | helper lemmas |
| `Verif/Props/*.lean` | the property theorems, with examples and counterexamples beside them |

### Simplifications

* Consecutive assignments to fields without an await between them are merged into one; a clock reading, random draw or overflow check that stands
  between them is done first. Only a panic, after which the socket is not used any more, could tell the difference.
* Reading and writing header fields through a raw pointer cast is modelled as reading and writing big-endian bytes at fixed offsets. (The cast requires that the
  byte vector is aligned to 4 bytes, which Rust does not promise; allocators do it in practice. This is not modelled.)
* `ewma` is modelled over exact rationals and in double precision (C13, C59–C61); everywhere else its result is an oracle. Overflow to infinity
  and NaN are left out of the model of doubles: all arguments are integers below 2^33 in absolute value, and the window is at least 1400. Subnormal averages are rounded
  more finely than in the code, which does not change any result (see `Verif/Float.lean`).
* Stream layer: in `UtpStream.lean` one call is atomic. `Threads.lean` cuts the polls at every attempt to lock a slot and every release; C69 proves that
  the atomic calls describe everything that can be seen as long as polls of the same slot do not overlap. The socket operation behind a poll is run in the poll that completes it (nobody can look at
  the socket while it is locked).
* DNS: `connect` and `bind` get the result list of the resolution as an argument.

## 2. Method

* **Codec** (C01-C08): algebraic laws about byte lists, by induction on the extension chain; bit vectors by arithmetic.
* **Step system** (`Lemmas/Step.lean`). Every operation is shown once to be a sequence of small steps (`Step E V`): wait, send, packet arrives,
  window advances, packet queued, and so on. `V : Ctx` says which packets may be sent and queued and which kinds of steps may occur
  (`enq` queueing, `que` sending from the queue, `ctl` closing, `req` asking for lost packets), so that the same theorem gives sharp information for
  each kind of operation. `at_runOp` (`Lemmas/Ops.lean`) is the main lemma: an operation that does not panic is a sequence of
  steps and keeps the structural invariant. Invariants over all executions are then proved by cases on one step; what holds at every moment *inside* an
  operation is stated with `Traced` and `Path`.
* **Exact results of one call**: symbolic evaluation of the monad (`Lemmas/Eval.lean`, `Lemmas/Recv.lean`, `Lemmas/Sending.lean`).
* **Sending** (C14-C18, C21-C23): the trace `SendTrace` (`Spec/Sending.lean`) describes a call of `send_to` completely: packets leave the queue in order, each
  after its wait; the accounting of sequence numbers follows by induction on the trace.
* **Receiving** (C24, C25): an invariant relates reorder buffer, acknowledgement number and pending bytes to the list of pieces of the peer.
* **End to end** (C47, C48): the sender's log consists of the SYN, data packets that carry the pieces with their numbers, and the FIN
  (`FromSender`), so the reader's network is one that C24 covers. The reader's acknowledgement number never passes a piece that did not arrive (`AckOk`), and
  the last packet that became outstanding at the sender is still outstanding or was acknowledged (`Front`).
* **Stream layer** (C49-C53): invariants of the slot machine.
* Where the property is **false of the code**, a theorem `..._counterexample` proves the negation for a concrete execution, evaluated by the kernel, and a theorem
  `..._partial` states what does hold.

Theorems are tested against wrong programs: `seeded/LOG.jsonl`.

## 3. Per property

Shape: A = algebraic law, I = invariant over all executions, R = refinement/relational, D = decision logic, X = counterexample.

| id | how it is proved |
|---|---|
| C01 | decoder as index loops; grammar as a separate spec (header ++ encoded extensions ++ payload); equivalence by induction on the chain (A) |
| C02 | getters/setters as byte list operations; lens laws (A) |
| C03 | iterator and payload loops with out-of-bounds as panic; equality with the grammar's parse (A) |
| C04 | set_sack with the `as u8` cast; law for bitmaps up to 252 bytes, X from 256 (partial) |
| C05 | iterator with indices; law by induction; X for the reported length after the first item (partial) |
| C06 | decision over the 256 codes, lifted (A) |
| C07 | arithmetic (A) |
| C08 | arithmetic for the draw; D for the handshake |
| C09 | I over all executions, float results arbitrary; X for growth on a loss after a timeout |
| C10 | two-state relations of the steps (R) |
| C11 | I |
| C12 | I + refinement of one step |
| C13 | exact rational version of `ewma`; the double precision version, by monotonicity of rounding |
| C14, C15 | R: queue contents after `send_to`; I on window, queue and log |
| C16, C17 | A on windows with wrap-around; I |
| C18 | R on the trace of a call and the clock oracle |
| C19 | exact result of one packet; X at wrap-around and in debug builds |
| C20 | D; X for a socket that is not connected though `connect` said so |
| C21 | I: the last packet of the stream is outstanding, queued or was acknowledged |
| C22, C23 | trace of `send_to`; X |
| C24 | R: delivered bytes against the list of pieces; X for each excluded case |
| C25 | R, streams of any length across wrap-around; X for a connecting side whose peer starts at 0 |
| C26 | R |
| C27 | D; X: old duplicate blocks the receiver |
| C28 | I |
| C29 | D; X |
| C30 | A on the builder; X at wrap-around |
| C31 | R; X |
| C32 | D |
| C33 | I on steps; X: Closed is left |
| C34 | R |
| C35, C36, C37, C38 | D + I; X |
| C39, C40, C41 | complete trace of `connect`; complete result of `accept`; X |
| C42 | R on the log of waits |
| C43, C44 | D; X |
| C45 | I for release builds and for `connect`; for debug builds X, and the complete list of overflows behind the panics (`Spec/Crash.lean`) |
| C46 | I; X |
| C47, C48 | composition of two executions (`Props/EndToEnd.lean`); X for connections longer than the number space (`Props/EndToEndWrap.lean`: two sides in step for 65537 rounds, byte by byte) |
| C49-C53 | stream state machine; X |
| C54 | decision table |
| C55 | D: the state after every failure of `connect`/`accept`; X when the reply to the SYN cannot be sent |
| C56 | R on `close` and the accounting of C21; X |
| C57 | termination with a measure on the waits left and the retransmissions per wait (`Lemmas/Ends.lean`); monotonicity in the fuel; X: general theorem about a flood of invalid datagrams |
| C58 | relation between the two builds, kept by every construct of the monad (`Lemmas/Release.lean`) (R); theorems about release builds carried over (`..._any`) |
| C59 | monotone rounding lifts the direction and the bounds from rationals to doubles (A); two-state relation of the steps (R); X for shrinking |
| C60 | I for clocks that do not run backwards: every current delay is covered by a base delay not above it; X at the wrap of the clock |
| C61 | R with the invariant of C60; X for a delay that drops |
| C62 | R: removing from the front equals filtering since samples are in order; X |
| C63 | exact result of one State packet against a relational spec (`Spec/Ack.lean`), in release builds, carried over to all builds with C58 |
| C64 | a logic of causes (`Lemmas/Errors.lean`): every computation keeps the counters of the oracles monotone and blames each error on its last receive or send; by recursion over the nested receives |
| C65 | a second logic (`Lemmas/Strangers.lean`): every computation keeps the peer of an established connection, and its sends to another address are answers, one each, to datagrams that arrived meanwhile; waiting sends nothing to strangers (the same logic with an environment in which nothing arrives) |
| C66 | a total-correctness logic (`Well` in `Lemmas/Progress.lean`): with enough fuel a computation panics or returns with a postcondition; the invariant is that the outstanding numbers are a suffix of the first ones, `curr_window` is their size, and after the wait with the last acknowledgement nothing is outstanding, so no nested receive starts; induction on the waits left |
| C67 | two-party argument: a progress logic (`Prog` in `Lemmas/Lossless.lean`) shows that each side runs up to the first datagram it lacks, and what it has sent by then; feeding the two results to each other by induction on the number of packets shows that neither ever lacks one. Logs only grow with fuel (`Lemmas/Grows.lean`) |
| C68 | symbolic evaluation of `close`, of `recv_from` of a FIN and of both together; the conditions are what C67 leaves |
| C69 | linearizability: an invariant that relates the stepwise state to an atomic one (the poll takes effect in the step that polls the future); X without the condition |
| C71 | I over all interleavings; the guards of each slot are counted against the calls in progress |
| C70 | I over one-at-a-time histories; X |
| C72 | I over all interleavings of polls and drops: a future that holds datagram k is in the middle of `accept` of k; X for dropped calls |
| C73 | from C72 and C41; X |
| C74 | the slots' futures are dropped first, at most one of them holds the lock (consistency of C42), so the socket is dropped in a reachable state; then C45, C57, C34 |
| C75 | invariant: the waker of a waiting task is in the unfinished future of its slot; X |
| C76 | as C67 and C68, for the two programs as a whole: each program is shown to send its next datagram once it has got those that the other sends first, so that by induction on the number of datagrams all arrive; the handshake with a bound socket first |
| C77 | the sender and the reader are described separately, by how many pieces were acknowledged or arrived after n waits; the two descriptions are coupled by induction along the common order of all waits, and if one side stood still both would get only repetitions, of which there are finitely many; partial: one packet per flush, connecting side sends, no panic, no reordering |
| C78 | the first exchange is evaluated step by step; what remains is a transfer in the other direction with a close, to which the argument of C76 applies; partial: the first number of the server is from 1 to 32768 |
| C79 | half a second: as long as the clock does not wrap around, a receive before a send begins only within half a second of the packet's turn (`C79_partial`: what a receive does in any other state is irrelevant to `send_packet`), and the packet is sent right after the receive that passes this time (`C79_sent`); in the last half second before the wrap-around `send_to` waits for ever while datagrams arrive that make no room (`C79_stuck`, `C79_counterexample`) |
| C80 | `Props/Advert.lean`: `C80_sent`, `C80_partial`, `C80_limit`, `C80_counterexample`; false: data packets, FINs, requests for lost packets and the answer of `accept` advertise a window of 0 |
| C81 | `Props/Piggyback.lean`: `C81_ignored`, `C81_partial`, `C81_counterexample`; false: only State packets acknowledge |
| C82 | `Props/Memory.lean`: `C82_partial`, `C82_held`, `C82_counterexample`; false: 91 MB held while 1 MiB is advertised |
| C83 | `Props/Source.lean`: `C83_partial`, `C83_blind`, `C83_runs`, `C83_counterexample`; false: source addresses are not checked |
| C84 | `Props/Backoff.lean`: `C84_partial`, `C84_reads`, `C84_counterexample`; false: the timeout of a socket that only reads doubles for ever |
| C85 | `Props/Stamp.lean`: `C85_punctual`, `C85_sent`, `C85_order` |
| C86 | `Props/Stamp.lean`: `C86_connect_partial`, `C86_accept_partial`; false: `C86_counterexample_fin`, `_repeat`, `_ahead` |
| C87 | `Props/EndOfStream.lean`: `C87_partial`, `C87_closed_partial`; false: `C87_counterexample`, `C87_counterexample_timeout` |
| C88 | `Props/Download.lean`: `C88_partial`, `C88_order_partial`, `C88_flushed_partial`; false: `C88_counterexample`, `C88_counterexample_order` |
| C89 | `Props/Oblivious.lean`: `C89_op`, `C89_runs`, `C89_bind`, `C89_connect`, `C89_accept`, `C89_origin`, `C89_sent`, `C89_read`, `C89_translate` |
| C90 | `Props/Nesting.lean`: `C90_counterexample`, `C90_nests`, `C90_never`, `C90_cause_partial`, `C90_depth_partial`, `C90_connected_partial` |
| C91 | `Props/Karn.lean`: `C91_measured_partial`, `C91_counterexample_timeout`, `C91_counterexample_resent`, `C91_counterexample_unsent` |
| C92 | `Props/Resend.lean`: `C92_in_order`, `C92_once`, `C92_silent` |
| C93 | `Props/AckOrder.lean`: `C93_partial`, `C93_big_partial`, `C93_counterexample` |
| C94 | `Props/AckFull.lean`: `C94_partial`, `C94_gap`, `C94_counterexample` |
| C95 | `Props/Oversize.lean`: `C95_partial` (up to 1520 bytes), `C95_read`, `C95_acknowledged`, `C95_counterexample` |
| C96 | `Props/Storm.lean`: `C96_partial` (Resets of this connection), `C96_forever` (false: endless exchange of Resets), `C96_counterexample` |
| C97 | `Props/Readable.lean`: `C97_partial` (no old packet comes back), `C97_all_partial`, `C97_session_partial`, `C97_counterexample` |
| C98 | `Props/GivesUp.lean`: `C98_partial` (exact time), `C98_counterexample` (31 seconds) |
| C99 | `Props/Reported.lean`: `C99_partial` (peer or the source of a valid packet of this call), `C99_counterexample` (address of a stranger) |
| C100 | `Props/Size.lean`: `C100_partial` (exact sizes), `C100_counterexample` (21 bytes answered by 8214) |
| C101 | `Props/Bogus.lean`: `C101_partial` (exactly what such a packet changes), `C101_mute` (send_to transmits nothing afterwards), `C101_counterexample` |
| C102 | `Props/Halving.lean`: `C102_partial`, `C102_effect` (complete effect of a selective acknowledgement), `C102_times` (each one halves the window), `C102_counterexample` |
| C103 | `Props/EmptyBuffer.lean`: `C103_partial`, `C103_read` (never Ok on an open connection), `C103_nothing`, `C103_counterexample` |
| C104 | `Props/Jammed.lean`: `C104_enters`, `C104_stays` (nothing is read again), `C104_happens` |
| C105 | `Props/Crossing.lean`: `C105_lost` (both flushes succeed, both messages are gone), `C105_silent` |
| C106 | `Text.lean` (model), `Spec/Text.lean` (the description of a datagram), `Props/Text.lean`: `C106_shown`, `C106_accepted`, `C106_held`, `C106_sent`, `C106_elapsed`, `C106_errors` |
| C107 | `Props/CloseCross.lean`: `C107_lost` |
| C108 | `Spec/StreamLossless.lean` (awaiting a future, programs that use streams), `Props/StreamLossless.lean`: `C108_transfer_partial`, `C108_close` |
| C109 | `Props/CloseLoss.lean`: `C109_fin_lost_partial`, `C109_answer_lost` (for every such connection), `C109_counterexample` (a concrete one) |
| C110 | `Props/OtherClock.lean`: `C110_clock_partial`, `C110_counterexample` (the same datagrams, different bytes read) |
| C111 | `Props/OtherId.lean`: `C111_identifiers` (all operations), `C111_connect` (all numbers drawn), `C111_accept` (all identifiers of the peer) |
| C112 | `Props/OtherStart.lean`: `C112_start_partial`, `C112_low_partial`; counterexamples `C112_counterexample_accept`, `C112_counterexample_sack`, `C112_counterexample_debug` |
| C113 | `Props/PeerStart.lean`: `C113_start_partial`, `C113_accept_partial`; counterexamples `C113_counterexample_connect`, `C113_counterexample_order`, `C113_counterexample_debug` |
| C114 | `Props/OtherHints.lean`: `C114_hints` |
| C115 | `Props/PeerTimes.lean`: `C115_runs`, `C115_times`, `C115_connect`, `C115_accept` |
| C116 | `Props/SmallWindow.lean`: `C116_runs`, `C116_window`, `C116_connect`, `C116_accept` |
| C117 | `Props/OtherExts.lean`: `C117_runs`, `C117_exts`, `C117_connect`, `C117_accept` |
| C118 | `Props/Unread.lean`: `C118_runs`, `C118_unread`, `C118_connect`, `C118_accept`; `Props/Looked.lean`: `C118_sharp` |
| C119 | `Props/OtherLimit.lean`: `C119_runs`, `C119_set` |
| C120 | `Props/SplitWrite.lean`: `C120_split`, `C120_many`, `C120_sharp` |
| C121 | `Props/Dull.lean`: `C121_runs`, `C121_log`, `C121_connect`, `C121_accept` |
| C122 | `Props/SplitRead.lean`: `C122_pieces`, `C122_sharp` |

## 4. What the code does wrong

Each item is a theorem.

| behaviour | theorem |
|---|---|
| A selective ack of more than 255 bytes is written with a truncated length; the peer cannot decode the packet | `C04_counterexample`, `C46_counterexample` |
| `BitStream::len` does not shrink | `C05_len_counterexample` |
| After a timeout (window of one segment) a detected loss doubles the window | `C09_counterexample` |
| Selective acks and the reorder buffer compare plain numbers, not modulo 2^16: at wrap-around packets reported missing are not sent again, bits are missing or the bitmap is huge, and data is delivered in the wrong order | `C19_wrap_counterexample`, `C30_counterexample`, `C30_counterexample_huge`, `C24_counterexample_wrap` |
| A `send_to` that fails loses exactly the packet whose turn it was, for good; the connection cannot make progress afterwards | `C22_forever`, `C22_counterexample` |
| A listening socket that draws a first number above 32768 does not transmit its first packet but counts it as sent | `C23_counterexample` |
| A packet of any type with the next number advances the acknowledgement number: a State packet (which carries the number of the peer's *next* packet), a stray Reset or SYN make the receiver skip data | `C24_counterexample`, `C24_counterexample_first`, `C29_counterexample_next`, `C44_counterexample` |
| When the reply to a data packet cannot be sent, the packet counts as received but is not kept | `C24_counterexample_send`, `C47_counterexample` |
| In a connection of 65535 packets, two packets that change places at the wrap-around are read in the wrong order; in one of 65537 packets a repeated acknowledgement of the first packet confirms one that never arrived | `C47_counterexample_wrap`, `C48_counterexample_wrap` |
| A connecting socket does not learn the peer's first number; if it is 0 the first packet is dropped | `C25_counterexample` |
| A late duplicate of an older packet is put at the front of the buffer and blocks reading for ever | `C27_counterexample` |
| Data with a foreign connection identifier is answered with a Reset, and delivered | `C29_counterexample` |
| Data that arrives while `send_to`, `flush` or `close` waits and could be read at once is acknowledged and thrown away | `C31_counterexample` |
| `close` can move a closed socket to FinSent; a Reset received in `flush` reopens a closed socket | `C33_counterexample`, `C37_counterexample` |
| Data packets without payload look like the end of the stream | `C35_counterexample` |
| A Reset received while a retransmission waits is swallowed | `C36_counterexample` |
| `peer_addr` reports a peer for a socket that never was connected | `C38_counterexample` |
| `connect` returns Ok without a connection when the reply is a SYN; it does not check who replies, the connection identifier or the acknowledged number | `C39_counterexample`, `C39_counterexample_stranger`, `C20_counterexample` |
| A bound socket resets a retransmitted SYN | `C40_counterexample` |
| A repeated FIN is not acknowledged | `C43_counterexample` |
| A stray SYN changes the peer's window | `C44_counterexample_window` |
| Debug builds panic on a SYN with identifier 65535, on data ahead of number 65535, on the third acknowledgement of 65535, on a selective ack that reaches beyond 65535 | `C45_counterexample_syn`, `C45_counterexample_data`, `C45_counterexample_state`, `C45_counterexample_sack`, `C41_counterexample`, `C19_counterexample` |
| A pending stream read polled with a buffer of another length panics and loses bytes; a pending write polled with another buffer reports the wrong buffer as written; after an error all further polls panic; `poll_close` always panics, and in the one branch where it does not, it flushes and does not close; address queries fail while an operation is pending | `C49_counterexample`, `C50_counterexample`, `C51_counterexample_always`, `C52_counterexample`, `C52_flushes`, `C53_counterexample` |
| When the reply to a SYN cannot be sent, `accept` fails, but only after its dropped socket has sent six FINs and waited 31 seconds | `C55_counterexample` |
| A dropped socket whose peer is silent loses its data without any report; what a failed `send_to` left in the queue is never sent, and `close` still says Ok | `C56_counterexample`, `C56_counterexample_unsent` |
| Invalid datagrams from anyone restart the wait: if they keep coming, `flush`, `close` and `recv_from` never return and nothing is retransmitted | `C57_flooded`, `C57_counterexample` |
| The 32-bit clock wraps every 71 minutes; a delay measured across the wrap is about −2^32 µs and becomes the base delay: the window shrinks, the round trip estimate rises to minutes, the timeout to 60 s | `C60_counterexample` |
| When the queuing delay exceeds the delay just measured the difference wraps to about 2^32 µs: round trip estimate 536 s, timeout 60 s, after delays of 202 ms and 3 ms | `C61_counterexample` |
| `off_target` is documented to lie in [−1, 1] but is not limited below | `C59_counterexample` |
| Current delays are kept for a tenth of a round trip, not one (milliseconds times 100 compared with microseconds) | `C62_counterexample` |
| Data and Fin packets are taken and answered whatever address they come from; the answer goes to that address and can be 400 times as long | `C65_counterexample` |
| A FIN of the peer closes the socket at once, also when our packets are still outstanding: a later acknowledgement makes `flush` and `close` fail with "other" | `C66_counterexample` |
| A stream read that waits for data keeps the socket locked: writes, flushes and methods of other clones wait until the read is done | `C70_counterexample`, `C70_counterexample_always` |
| Two overlapping polls of the same kind can panic | `C69_counterexample` |
| A dropped `accept` loses the SYN it took | `C72_counterexample` |
| The listener makes a second connection for a repeated SYN | `C73_counterexample` |
| Of two tasks that read from clones of a stream only the last one is woken; the other hangs | `C75_counterexample` |
| Copies of an old acknowledgement between timeouts keep a socket from giving up, and the timeout doubles without being reset until it overflows; a debug build panics | `C77_counterexample_debug` |
| When the first packet after a change of direction (or the first of the accepting side) is lost, the next timeout of the reader acknowledges it: the number was taken from a State packet; the sender is told that everything arrived, and the reader continues after the gap | `C77_counterexample` |
| The echo server with a first number above 32768 never sends its echo; the client's timeout acknowledges it, and the client reads the end of the stream | `C78_counterexample` |
| When the turn of a packet comes in the last half second before the 32-bit clock wraps around (every 71 minutes), the limit of half a second for the wait does not work: `send_to` waits until there is room, however long | `C79_stuck`, `C79_counterexample` |
| Only answers carry the receive window; Data packets, FINs, fast resend requests and the SYN-ACK carry 0. A peer that receives a data packet limits itself to 2800 bytes in flight, whatever its congestion window (src/socket.rs:438-442, 608-617, 656-668) | `C80_limit`, `C80_counterexample` |
| The acknowledgement number of Data and FIN packets is ignored; data acknowledged only by them is resent until the connection times out (src/socket.rs:905-934, 959-984) | `C81_ignored`, `C81_counterexample` |
| The receive window is advertised but not enforced: a peer that leaves out one packet makes a socket hold every packet after it, up to 91 MB and more, while each answer advertises 1 MiB (src/socket.rs:438-442, 1138-1163) | `C82_held`, `C82_counterexample` |
| The source address of datagrams is not checked: anyone who knows the connection identifier can insert data, acknowledge, or reset the connection from any address (src/socket.rs:428-442, 857-957) | `C83_blind`, `C83_counterexample` |
| Received data does not reset the timeout: that of a socket that only reads doubles on each idle gap for ever (one second becomes 256 s after 8 timeouts), and so does the time after which a dead peer is noticed (src/socket.rs:458-460, 732-747) | `C84_reads`, `C84_counterexample` |
| A FIN reports no delay, a packet repeated after a timeout an outdated one, and delays are absolute distances of two clocks: with the peer's clock ahead, slower packets are reported as faster (src/socket.rs:324-329, 499-507, src/util.rs:19-25) | `C86_counterexample_fin`, `C86_counterexample_repeat`, `C86_counterexample_ahead` |
| A data packet that arrives again after a later one blocks the packets behind it for ever (it is enough that two acknowledgements are lost and the first packet is sent again), and the reader is told that the stream has ended: bytes are lost although all calls of both sides succeed; after a timeout `recv_from` also reports the end (src/socket.rs:352-456, 531-598, 1138-1166) | `C77_counterexample_batch`, `C77_counterexample_overtake`, `C87_counterexample`, `C87_counterexample_timeout` |
| The server's first data packet has the number of its answer to the SYN, so the client acknowledges it before it was sent: if it is lost or overtaken by the second packet, its bytes are missing although all calls of both sides succeed (src/socket.rs:515-529, 857-984, 1229-1276) | `C88_counterexample`, `C88_counterexample_order` |
| A selective ack that reports a loss while the window is full makes `recv` call itself (src/socket.rs:1082-1100, 808-828, 662-669); a peer that repeats one 26-byte datagram makes the calls nest without bound, each holding 3020 bytes of buffers, and no wait of half a second ever ends | `C90_counterexample`, `C90_nests`, `C90_never` |
| Round trips are measured on packets that were sent more than once, or never (src/socket.rs:505, 822-823, 675-678, 1061): after a timeout an old ack gives a sample that is too short, after a fast resend a new ack gives one that is too long, and a packet skipped by `send_packet` is measured from time 0 | `C91_counterexample_timeout`, `C91_counterexample_resent`, `C91_counterexample_unsent` |
| When a packet is read in parts and a later one arrives inside `send_to`, `flush` or `close`, the acknowledgement number is set back and the next answer acknowledges less than the one before (src/socket.rs:531-566) | `C93_counterexample` |
| When a gap is filled, the answer acknowledges only the packet that filled it, not those already held behind it; these are acknowledged only by a later answer, so the sender waits for a timeout and sends them again (src/socket.rs:515-546, 861-863, 959-984) | `C94_gap`, `C94_counterexample` |
| A data packet longer than 1520 bytes is cut without notice, acknowledged and read without its end; the stream misses bytes (src/socket.rs:380, 400-408) | `C95_acknowledged`, `C95_counterexample` |
| A Reset of another connection is answered with a Reset, so two sockets can exchange Resets for ever (src/socket.rs:866-872) | `C96_forever`, `C96_counterexample` |
| The documented time until a dead peer is noticed (about 16 s, initial timeout 500 ms) is wrong: it is 31 s, the initial timeout is 1000 ms (src/socket.rs:32, 75-79) | `C98_counterexample` |
| `recv_from` reports the source of the datagram received last, not of the bytes returned (src/socket.rs:432-456) | `C99_counterexample` |
| Selective acknowledgements are not limited: two 21-byte packets are answered with 8214 bytes, to any address (src/socket.rs:765-785) | `C100_counterexample` |
| An acknowledgement of a number that was never sent is believed: the next `send_to` returns Ok and transmits nothing (src/socket.rs:1035-1040, 674-679) | `C101_mute`, `C101_counterexample` |
| Every selective acknowledgement that tells of a loss halves the congestion window again, and packets still on their way count as lost (src/socket.rs:1079-1124) | `C102_times`, `C102_counterexample` |
| `recv_from` into an empty buffer waits, although data is there, and may time out and close the connection (src/socket.rs:352-377) | `C103_read`, `C103_counterexample` |
| a late duplicate at the front of the reorder buffer ends reading until the numbers wrap around, while everything that arrives is acknowledged (src/socket.rs:1138-1163, 548-588) | `C104_enters`, `C104_stays` |
| `flush` throws away the data it receives while it waits for acknowledgements: when both ends send and flush, both messages are acknowledged and lost (src/socket.rs:627-635) | `C105_lost`, `C105_silent` |
| `close` acknowledges and throws away what arrives while it waits, and the sender, which ignores what a FIN acknowledges, retransmits until it gives up (src/socket.rs:308-345, 912-938) | `C107_lost` |
| if the answer to a FIN is lost, `close` fails with ConnectionTimedOut after all its attempts: the peer, closed since it answered, never reads a repeated FIN (src/socket.rs:312-348, 367-373, 936-939) | `C109_answer_lost` |
| with a full send window, the system clock decides whether received data are returned or thrown away: a retransmission reads datagrams into a scratch buffer until the clock shows half a second (src/socket.rs:654-664) | `C110_counterexample` |

Also seen while modelling, harmless or covered by the above: the reply's selective ack does not contain the packet it replies to; the congestion timeout doubles
without an upper bound; `recv_from` with an empty buffer never returns data; the future of `handle_state_packet` is not awaited in FinSent (so acknowledgements do not
shrink the window then); a socket made by `bind` can call `send_to` before any connection exists; the timestamp difference reported by the peer
is never read, so the delay that congestion control works with is measured from our own timestamps and is a round trip, not the one-way delay of LEDBAT (C115); a window of zero reported by the peer does not stop the sender (C116).

## 5. Trusted base

Lean's kernel; the axioms `propext`, `Classical.choice`, `Quot.sound` (listed per theorem in `AXIOMS.md`, made with `#print axioms`); the reading of the
Rust source into the model (the code is not run; the model passes the crate's own tests, `Cases/CrateTests.lean`); the definitions in `Verif/Spec` that the statements use. No axioms are added; no `sorry`, `native_decide`,
`bv_decide`.

Not modelled: memory, the layout of `Debug` output (the values shown are, `Text.lean`), that a log message is written, infinities, NaN and the rounding of subnormal numbers (floating point results are arbitrary oracles or computed by the rounding model of `Verif/Float.lean`), a panic of the timer for an enormous timeout (it doubles without bound), DNS resolution (its result list is an
argument), OS sockets (oracles), the async executor (an operation runs when polled; drop = `pending`), what wakes a future (a future may be woken at any time, `Wakers.lean`), the
order in which values go out of scope (that a dropped socket runs `close` is modelled, `Drop.lean`), tests and benches. Of the examples, the two loops of
`examples/utpcat.rs` are modelled (`Spec/Cat.lean`, C76), and the loop of the echo server (`Spec/Echo.lean`, C78). Readings of the clock that are made only for log
messages (`debug!` arguments) are not counted.
