{
 "claims": [
  {
   "property": "C01",
   "status": "proved",
   "theorems": [
    "Utp.C01_decides",
    "Utp.C01_accept_iff",
    "Utp.C01_reject"
   ],
   "note": "all byte strings; grammar in Verif/Spec/Wire.lean"
  },
  {
   "property": "C02",
   "status": "proved",
   "theorems": [
    "Utp.C02_lossless",
    "Utp.C02_fields",
    "Utp.C02_first_bytes",
    "Utp.C02_write",
    "Utp.C02_write_type",
    "Utp.C02_independent"
   ],
   "note": "every accepted datagram, every field, every value"
  },
  {
   "property": "C03",
   "status": "proved",
   "theorems": [
    "Utp.C03_extensions",
    "Utp.C03_payload",
    "Utp.C03_accepted"
   ],
   "note": "every accepted datagram; the chain is the one of the grammar in Verif/Spec/Wire.lean"
  },
  {
   "property": "C04",
   "status": "partial",
   "theorems": [
    "Utp.C04_set_sack_partial",
    "Utp.C04_header_kept",
    "Utp.C04_panics_iff",
    "Utp.C04_counterexample",
    "Utp.C04_too_long"
   ],
   "note": "holds for bitmaps up to 252 bytes; from 256 bytes on the length byte is truncated (counterexample proved)"
  },
  {
   "property": "C05",
   "status": "partial",
   "theorems": [
    "Utp.C05_next",
    "Utp.C05_fused",
    "Utp.C05_items",
    "Utp.C05_count_ones",
    "Utp.C05_len_partial",
    "Utp.C05_len_counterexample"
   ],
   "note": "everything except the reported remaining length, which is wrong after the first item (proved)"
  },
  {
   "property": "C06",
   "status": "proved",
   "theorems": [
    "Utp.C06_packet_type",
    "Utp.C06_extension_type"
   ],
   "note": "all 256 codes"
  },
  {
   "property": "C07",
   "status": "proved",
   "theorems": [
    "Utp.C07_now",
    "Utp.C07_sub",
    "Utp.C07_abs",
    "Utp.C07_readback"
   ],
   "note": "all readings of the clock; the clock itself is an oracle"
  },
  {
   "property": "C08",
   "status": "proved",
   "theorems": [
    "Utp.C08_draw",
    "Utp.C08_drawn",
    "Utp.C08_handshake",
    "Utp.C08_no_overflow"
   ],
   "note": "Every draw; every SYN sent by a connect that ends connected and accepted by a listener gives mirrored identifiers."
  },
  {
   "property": "C54",
   "status": "proved",
   "theorems": [
    "Utp.C54_kinds"
   ],
   "note": "every SocketError and ParseError; when each is raised is C64"
  },
  {
   "property": "C10",
   "status": "proved",
   "theorems": [
    "Utp.C10_changes"
   ],
   "note": "every step of every execution"
  },
  {
   "property": "C11",
   "status": "proved",
   "theorems": [
    "Utp.C11_step",
    "Utp.C11_range"
   ],
   "note": "every reachable state, every network and clock; the estimates are integers"
  },
  {
   "property": "C12",
   "status": "proved",
   "theorems": [
    "Utp.C12_changes",
    "Utp.C12_bound",
    "Utp.C12_no_panic",
    "Utp.C12_min"
   ],
   "note": "every execution, every clock"
  },
  {
   "property": "C14",
   "status": "proved",
   "theorems": [
    "Utp.C14_framing",
    "Utp.C14_result",
    "Utp.C14_numbering",
    "Utp.C14_unique"
   ],
   "note": "every buffer; the framing is also shown to be the only one"
  },
  {
   "property": "C15",
   "status": "proved",
   "theorems": [
    "Utp.C15_content"
   ],
   "note": "every execution of an established connection; numbers are taken modulo 2^16"
  },
  {
   "property": "C16",
   "status": "proved",
   "theorems": [
    "Utp.C16_cumulative",
    "Utp.C16_other",
    "Utp.C16_changes",
    "Utp.C16_consecutive"
   ],
   "note": "every window, every acknowledgement; that the window is consecutive is an invariant of executions"
  },
  {
   "property": "C17",
   "status": "proved",
   "theorems": [
    "Utp.C17_no_underflow",
    "Utp.C17_exact",
    "Utp.C17_always",
    "Utp.C17_zero"
   ],
   "note": "every reachable state; never underflows in either build"
  },
  {
   "property": "C21",
   "status": "proved",
   "theorems": [
    "Utp.C21_flush"
   ],
   "note": "every execution in which all earlier sends succeeded"
  },
  {
   "property": "C09",
   "status": "partial",
   "theorems": [
    "Utp.C09_changes_partial",
    "Utp.C09_floor",
    "Utp.C09_counterexample"
   ],
   "note": "all clauses except that the window does not grow on a detected loss: after a timeout it goes from one to two segments (counterexample proved)"
  },
  {
   "property": "C45",
   "status": "partial",
   "theorems": [
    "Utp.C45_ops_partial",
    "Utp.C45_connect",
    "Utp.C45_accept_partial",
    "Utp.C45_accept_iff",
    "Utp.C45_debug_partial",
    "Utp.C45_far_partial",
    "Utp.C45_counterexample_syn",
    "Utp.C45_counterexample_data",
    "Utp.C45_counterexample_state",
    "Utp.C45_counterexample_sack"
   ],
   "note": "proved for builds without overflow checks, and for connect in any build; with overflow checks a single datagram can crash the process (four counterexamples proved), and the overflows that can do so are listed completely (C45_debug_partial, C45_accept_iff)"
  },
  {
   "property": "C46",
   "status": "partial",
   "theorems": [
    "Utp.C46_valid_partial",
    "Utp.C46_ids",
    "Utp.C46_stored",
    "Utp.C46_counterexample"
   ],
   "note": "connection identifiers: proved for connections made by connect or accept; validity: proved except for replies whose selective ack exceeds 252 bytes (counterexample proved)"
  },
  {
   "property": "C33",
   "status": "partial",
   "theorems": [
    "Utp.C33_changes_partial",
    "Utp.C33_fixed",
    "Utp.C33_counterexample"
   ],
   "note": "every transition is one of the listed ones, except that close may move a socket that was closed by a packet received while close was flushing to FinSent (counterexample proved)"
  },
  {
   "property": "C35",
   "status": "partial",
   "theorems": [
    "Utp.C35_read",
    "Utp.C35_sticky_partial",
    "Utp.C35_drain_partial",
    "Utp.C35_counterexample",
    "Utp.C35_read_any",
    "Utp.C35_sticky_any_partial",
    "Utp.C35_drain_any_partial"
   ],
   "note": "proved for every call that does not panic when no data packet without payload is buffered; with one, recv_from returns 0 bytes before later data (counterexample proved)"
  },
  {
   "property": "C36",
   "status": "partial",
   "theorems": [
    "Utp.C36_read",
    "Utp.C36_sticky_partial",
    "Utp.C36_reported_partial",
    "Utp.C36_counterexample",
    "Utp.C36_read_any",
    "Utp.C36_sticky_any_partial",
    "Utp.C36_reported_any_partial"
   ],
   "note": "a Reset received by the receive nested in a retransmission is swallowed (counterexample proved); packets without payload as for C35"
  },
  {
   "property": "C37",
   "status": "partial",
   "theorems": [
    "Utp.C37_send",
    "Utp.C37_stays_partial",
    "Utp.C37_counterexample"
   ],
   "note": "a closed socket with outstanding data can be reopened by a Reset received in flush (counterexample proved)"
  },
  {
   "property": "C34",
   "status": "proved",
   "theorems": [
    "Utp.C34_idempotent",
    "Utp.C34_fin",
    "Utp.C34_ok"
   ],
   "note": "no FIN while data is unacknowledged; Ok means closed; nothing is done on closed or unconnected sockets"
  },
  {
   "property": "C38",
   "status": "partial",
   "theorems": [
    "Utp.C38_when",
    "Utp.C38_source",
    "Utp.C38_partial",
    "Utp.C38_counterexample"
   ],
   "note": "proved for sockets that were connected; a socket reset before it was connected and then closed reports a peer (counterexample proved)"
  },
  {
   "property": "C26",
   "status": "proved",
   "theorems": [
    "Utp.C26_read",
    "Utp.C26_split",
    "Utp.C26_all",
    "Utp.C26_all_any"
   ],
   "note": "every payload and every sequence of buffer sizes, in every build"
  },
  {
   "property": "C27",
   "status": "partial",
   "theorems": [
    "Utp.C27_partial",
    "Utp.C27_counterexample",
    "Utp.C27_any_partial"
   ],
   "note": "proved for duplicates of packets still held and of the last one delivered; older duplicates are inserted again (counterexample proved)"
  },
  {
   "property": "C28",
   "status": "proved",
   "theorems": [
    "Utp.C28_sorted",
    "Utp.C28_insert"
   ],
   "note": "every reachable state"
  },
  {
   "property": "C29",
   "status": "partial",
   "theorems": [
    "Utp.C29_partial",
    "Utp.C29_counterexample",
    "Utp.C29_counterexample_next"
   ],
   "note": "proved for packets other than data that do not have the next number; a data packet of another connection is delivered, and one with the next number counts as received (counterexamples)"
  },
  {
   "property": "C30",
   "status": "partial",
   "theorems": [
    "Utp.C30_bits_partial",
    "Utp.C30_reply_partial",
    "Utp.C30_counterexample",
    "Utp.C30_counterexample_huge",
    "Utp.C30_reply_any_partial"
   ],
   "note": "bits are exact unless 65535 is acknowledged, and complete for packets whose number has not wrapped; both exceptions have counterexamples"
  },
  {
   "property": "C31",
   "status": "partial",
   "theorems": [
    "Utp.C31_partial",
    "Utp.C31_counterexample",
    "Utp.C31_any_partial"
   ],
   "note": "packets that must wait for an earlier one are kept; packets that can be returned at once are lost (counterexample proved)"
  },
  {
   "property": "C32",
   "status": "proved",
   "theorems": [
    "Utp.C32_ignored"
   ],
   "note": "every state, every datagram that is not a valid packet"
  },
  {
   "property": "C20",
   "status": "partial",
   "theorems": [
    "Utp.C20_timeout",
    "Utp.C42_wait",
    "Utp.C20_counterexample"
   ],
   "note": "proved for every state; a socket that connect returned though its SYN was not acknowledged (C39) sends State packets (counterexample proved)"
  },
  {
   "property": "C42",
   "status": "proved",
   "theorems": [
    "Utp.C42_wait",
    "Utp.C42_gives_up",
    "Utp.C42_recv_from"
   ],
   "note": "with overflow checks: as long as the doubled timeout fits 64 bits"
  },
  {
   "property": "C43",
   "status": "partial",
   "theorems": [
    "Utp.C43_fin",
    "Utp.C43_repeat_partial",
    "Utp.C43_counterexample",
    "Utp.C43_fin_any",
    "Utp.C43_repeat_any_partial"
   ],
   "note": "every call that does not panic; a repeated FIN is acknowledged whenever it is received, but recv_from does not receive on a closed socket (counterexample proved)"
  },
  {
   "property": "C44",
   "status": "partial",
   "theorems": [
    "Utp.C44_partial",
    "Utp.C44_counterexample",
    "Utp.C44_counterexample_window",
    "Utp.C44_any_partial"
   ],
   "note": "every call that does not panic; the SYN overwrites the peer's window and delay, and one with the expected number hides a missing packet (counterexamples proved)"
  },
  {
   "property": "C39",
   "status": "partial",
   "theorems": [
    "Utp.C39_connect_partial",
    "Utp.C39_no_socket",
    "Utp.C39_syns",
    "Utp.C39_ok_partial",
    "Utp.C39_counterexample",
    "Utp.C39_counterexample_stranger"
   ],
   "note": "Complete trace of connect for every network behaviour. Ok-implies-connected fails when the reply is a SYN; the reply's address, connection id and ack number are not checked. Both are proved as counterexamples."
  },
  {
   "property": "C40",
   "status": "partial",
   "theorems": [
    "Utp.C40_listener_partial",
    "Utp.C40_counterexample"
   ],
   "note": "True when the peer is a listener, for every loss pattern of the first SYNs; false when the peer is a bound socket in recv_from (it resets the retransmitted SYN)."
  },
  {
   "property": "C41",
   "status": "partial",
   "theorems": [
    "Utp.C41_accept_partial",
    "Utp.C41_socket",
    "Utp.C41_others",
    "Utp.C41_incoming",
    "Utp.C41_counterexample"
   ],
   "note": "Exact in release builds. In a debug build a SYN with connection id 65535 panics."
  },
  {
   "property": "C49",
   "status": "partial",
   "theorems": [
    "Utp.C49_read",
    "Utp.C49_kept_partial",
    "Utp.C49_counterexample"
   ],
   "note": "Completed reads are exact. A poll with a buffer of another length than the pending read panics and loses the bytes (counterexample proved)."
  },
  {
   "property": "C50",
   "status": "partial",
   "theorems": [
    "Utp.C50_write_partial",
    "Utp.C50_once",
    "Utp.C50_counterexample"
   ],
   "note": "True when all polls of one write pass the same buffer; a poll with another buffer gets the result of the pending write (counterexample proved)."
  },
  {
   "property": "C51",
   "status": "partial",
   "theorems": [
    "Utp.C51_partial",
    "Utp.C51_counterexample_always",
    "Utp.C51_counterexample"
   ],
   "note": "False for every failed read or write (proved); flush stays usable."
  },
  {
   "property": "C52",
   "status": "partial",
   "theorems": [
    "Utp.C52_counterexample",
    "Utp.C52_flushes"
   ],
   "note": "False in every reachable state: poll_close always panics when no other thread polls at the same moment. C52_flushes states what it does when one does: it flushes the socket and does not close it."
  },
  {
   "property": "C53",
   "status": "partial",
   "theorems": [
    "Utp.C53_partial",
    "Utp.C53_counterexample"
   ],
   "note": "True exactly when no operation is in progress; false otherwise (proved)."
  },
  {
   "property": "C25",
   "status": "partial",
   "theorems": [
    "Utp.C25_all",
    "Utp.C25_stream",
    "Utp.C25_accepted",
    "Utp.C25_connected_partial",
    "Utp.C25_counterexample"
   ],
   "note": "Proved for every build, stream length and buffer sizes, across wrap-around, for accepted connections and for connecting ones whose peer does not start at number 0; that case is a counterexample."
  },
  {
   "property": "C24",
   "status": "partial",
   "theorems": [
    "Utp.C24_partial",
    "Utp.C24_client_partial",
    "Utp.C24_counterexample",
    "Utp.C24_counterexample_send",
    "Utp.C24_counterexample_wrap",
    "Utp.C24_counterexample_first"
   ],
   "note": "All schedules of data and FIN packets, timeouts and garbage, without wrap-around, when this side only reads and its sends succeed; for a client before its first packet the first piece may be missing if the second packet comes first (C24_client_partial). False otherwise (counterexamples proved)."
  },
  {
   "property": "C13",
   "status": "proved",
   "theorems": [
    "Utp.C13_none",
    "Utp.C13_one",
    "Utp.C13_between",
    "Utp.C13_min_max",
    "Utp.C13_weighted",
    "Utp.C13_window",
    "Utp.C13_f64",
    "Utp.C13_f64_one",
    "Utp.C13_f64_none",
    "Utp.C13_samples",
    "Utp.rne_nearest"
   ],
   "note": "both over exact rationals and in IEEE double precision (a model of the rounding, proved to be to the nearest even in rne_nearest)"
  },
  {
   "property": "C18",
   "status": "proved",
   "theorems": [
    "Utp.C18_send",
    "Utp.C18_realTime"
   ],
   "note": "for every build, network and clock; time differences are taken on the clock's 32-bit readings, and the theorem concludes about any real time they may stand for"
  },
  {
   "property": "C19",
   "status": "partial",
   "theorems": [
    "Utp.C19_fast",
    "Utp.C19_sack_partial",
    "Utp.C19_counterexample",
    "Utp.C19_wrap_counterexample",
    "Utp.C19_sack_any_partial"
   ],
   "note": "fast retransmission: proved for all builds except a debug build at number 65535, which panics (counterexample); selective ack: proved for every call that does not panic when the numbers it covers do not wrap (counterexample)"
  },
  {
   "property": "C22",
   "status": "partial",
   "theorems": [
    "Utp.C22_partial",
    "Utp.C22_forever",
    "Utp.C22_counterexample"
   ],
   "note": "False: every failing send_to loses exactly the packet whose turn it was, for good (proved for all executions); at most one number is lost per failure."
  },
  {
   "property": "C23",
   "status": "partial",
   "theorems": [
    "Utp.C23_partial",
    "Utp.C23_counterexample"
   ],
   "note": "True except for packets numbered more than 32768 after the last acknowledged number, which includes the first packets of half of all listening sockets (counterexample proved)."
  },
  {
   "property": "C47",
   "status": "partial",
   "theorems": [
    "Utp.C47_partial",
    "Utp.C47_counterexample",
    "Utp.C47_counterexample_wrap"
   ],
   "note": "Proved for all executions of the two sides (connect, send_to and flush, then close; accept, then recv_from) over any network that does not forge datagrams, with at most 65533 packets and when the reader's operating system takes its replies; without the latter it is false (counterexample), and so it is for 65535 packets (counterexample: the packets numbered 65535 and 0 change places on the network, and the second one is read in the place of the first)."
  },
  {
   "property": "C48",
   "status": "partial",
   "theorems": [
    "Utp.C48_partial",
    "Utp.C48_all_partial",
    "Utp.C48_counterexample",
    "Utp.C48_counterexample_wrap"
   ],
   "note": "Proved in the same setting with at most 65533 packets: when a send_to and a later flush return Ok, everything given to send_to up to then has arrived. The bytes of a failed send_to are not covered (counterexample), and for 65537 packets it is false (counterexample: the network repeats the acknowledgement of the first packet, which is taken for that of the packet with the same number)."
  },
  {
   "property": "C55",
   "status": "partial",
   "theorems": [
    "Utp.C55_connect",
    "Utp.C55_accept_partial",
    "Utp.C55_counterexample"
   ],
   "note": "proved for connect in every case and for accept when the reply to the SYN can be sent; if it cannot, the dropped socket is already connected and sends FINs while accept waits (counterexample proved)"
  },
  {
   "property": "C56",
   "status": "partial",
   "theorems": [
    "Utp.C56_silent",
    "Utp.C56_close_partial",
    "Utp.C56_never_fails",
    "Utp.C56_counterexample",
    "Utp.C56_counterexample_unsent"
   ],
   "note": "proved for close returning Ok when every send_to succeeded; a dropped socket reports nothing when close fails, and pieces left by a failed send_to are never sent (counterexamples proved)"
  },
  {
   "property": "C57",
   "status": "partial",
   "theorems": [
    "Utp.C57_partial",
    "Utp.C57_fuel",
    "Utp.C57_fuel_log",
    "Utp.C57_timed",
    "Utp.C57_flooded",
    "Utp.C57_counterexample"
   ],
   "note": "proved when the network eventually falls silent; a steady flow of invalid datagrams from anyone keeps flush, close and recv_from waiting forever (proved for every such flow)"
  },
  {
   "property": "C58",
   "status": "proved",
   "theorems": [
    "Utp.C58_op",
    "Utp.C58_calls",
    "Utp.C58_connect",
    "Utp.C58_accept",
    "Utp.C58_reach"
   ],
   "note": "where the build with overflow checks panics, the other one goes on (example); the list of these panics is part of C45"
  },
  {
   "property": "C59",
   "status": "partial",
   "theorems": [
    "Utp.C59_direction",
    "Utp.C59_monotone",
    "Utp.C59_growth",
    "Utp.C59_shrink",
    "Utp.C59_changes_partial",
    "Utp.C59_counterexample"
   ],
   "note": "directions, monotonicity and growth proved for all executions whose clock does not run backwards; shrinking by at most one segment per window only up to a queuing delay of 200 ms (counterexample above)"
  },
  {
   "property": "C60",
   "status": "partial",
   "theorems": [
    "Utp.C60_range_partial",
    "Utp.C60_counterexample"
   ],
   "note": "proved for every clock that does not run backwards; false when the 32-bit clock wraps (counterexample)"
  },
  {
   "property": "C61",
   "status": "partial",
   "theorems": [
    "Utp.C61_changes_partial",
    "Utp.C61_counterexample"
   ],
   "note": "proved while the queuing delay is not larger than the delay just measured and the clock does not run backwards; otherwise false (counterexample)"
  },
  {
   "property": "C62",
   "status": "partial",
   "theorems": [
    "Utp.C62_changes_partial",
    "Utp.C62_counterexample"
   ],
   "note": "the window is a tenth of the round-trip time, not one (proved for clocks that do not run backwards, and counterexample)"
  },
  {
   "property": "C63",
   "status": "proved",
   "theorems": [
    "Utp.C63_ack",
    "Utp.C63_repeated",
    "Utp.C63_third",
    "Utp.C63_start"
   ],
   "note": "for every call that does not panic; the third acknowledgement when there is room in the window"
  },
  {
   "property": "C64",
   "status": "proved",
   "theorems": [
    "Utp.C64_causes",
    "Utp.C64_never",
    "Utp.C64_reported"
   ],
   "note": "for every operation on every socket; the errors of connect are in C39"
  },
  {
   "property": "C65",
   "status": "partial",
   "theorems": [
    "Utp.C65_partial",
    "Utp.C65_op_partial",
    "Utp.C65_ignorant",
    "Utp.C65_unprovoked",
    "Utp.C65_counterexample"
   ],
   "note": "the length is bounded when no Data or Fin packet with an identifier of the connection comes from the address (then all answers are Resets of 20 bytes); otherwise false: 21 bytes with a forged sender are answered with 8214 (counterexample)"
  },
  {
   "property": "C66",
   "status": "partial",
   "theorems": [
    "Utp.C66_partial",
    "Utp.C66_close_partial",
    "Utp.C66_last",
    "Utp.C66_unnamed",
    "Utp.C66_sent_partial",
    "Utp.C66_counterexample"
   ],
   "note": "for every call that does not panic, when no FIN or Reset of the connection comes before the acknowledgement, and at most 63495 packets are outstanding (more, if the acknowledgement carries no selective one); with a FIN of the peer before it (it closed its side), flush fails although the acknowledgement arrives (counterexample)"
  },
  {
   "property": "C67",
   "status": "partial",
   "theorems": [
    "Utp.C67_transfer_partial",
    "Utp.C67_conversation_partial",
    "Utp.C67_handshake",
    "Utp.C67_connection_partial"
   ],
   "note": "for batches whose packets stay within 32768 numbers of the last acknowledged one (a listening socket starts at 0, so with a large first number it does not transmit: C23_counterexample) and a listening socket that does not draw 0 as first number (C25_counterexample)"
  },
  {
   "property": "C68",
   "status": "partial",
   "theorems": [
    "Utp.C68_close",
    "Utp.C68_both",
    "Utp.C68_session_partial"
   ],
   "note": "closing is proved in full; the whole life of a connection for conversations as in C67"
  },
  {
   "property": "C69",
   "status": "proved",
   "theorems": [
    "Utp.C69_one_by_one",
    "Utp.C69_reach",
    "Utp.C69_close",
    "Utp.C69_counterexample"
   ],
   "note": "the condition that polls of one kind do not overlap is necessary (C69_counterexample)"
  },
  {
   "property": "C70",
   "status": "partial",
   "theorems": [
    "Utp.C70_partial",
    "Utp.C70_counterexample",
    "Utp.C70_counterexample_always"
   ],
   "note": "true when no operation is in progress; false while a read waits (counterexample: whatever is polled, by whichever clone, nothing happens until the read is polled again)"
  },
  {
   "property": "C71",
   "status": "proved",
   "theorems": [
    "Utp.C71_socket",
    "Utp.C71_slots"
   ],
   "note": "in builds without overflow checks; with them a socket operation can panic (C45)"
  },
  {
   "property": "C72",
   "status": "partial",
   "theorems": [
    "Utp.C72_each",
    "Utp.C72_once",
    "Utp.C72_kept",
    "Utp.C72_incoming",
    "Utp.C72_ready",
    "Utp.C72_endless",
    "Utp.C72_counterexample"
   ],
   "note": "proved but for calls of accept that are dropped after they took a SYN: the SYN is lost (counterexample)"
  },
  {
   "property": "C73",
   "status": "partial",
   "theorems": [
    "Utp.C73_partial",
    "Utp.C73_counterexample"
   ],
   "note": "false of the code: connect sends its SYN again when the reply is late and both make a connection (counterexample); proved that two such sockets come from two SYN packets"
  },
  {
   "property": "C74",
   "status": "proved",
   "theorems": [
    "Utp.C74_drop",
    "Utp.C74_ends",
    "Utp.C74_fin"
   ],
   "note": "in builds without overflow checks; with them a socket operation can panic (C45)"
  },
  {
   "property": "C75",
   "status": "partial",
   "theorems": [
    "Utp.C75_partial",
    "Utp.C75_served_partial",
    "Utp.C75_forgotten",
    "Utp.C75_counterexample"
   ],
   "note": "true if no task polls a slot another task waits for; false otherwise (counterexample: two readers, the first is never woken)"
  },
  {
   "property": "C76",
   "status": "proved",
   "theorems": [
    "Utp.C76_cat",
    "Utp.C76_stream"
   ],
   "note": "the programs run on the sockets; a stream polled by one task runs the same operations one after the other (C49, C69)"
  },
  {
   "property": "C77",
   "status": "partial",
   "theorems": [
    "Utp.C77_partial",
    "Utp.C77_connection_partial",
    "Utp.C77_counterexample",
    "Utp.C77_counterexample_batch",
    "Utp.C77_counterexample_overtake",
    "Utp.C77_counterexample_debug"
   ],
   "note": "proved for the connecting side as the sender (nothing was acknowledged ahead), buffers of at most 1380 bytes flushed one by one and a network that keeps the order, in release builds, and in debug builds if neither program panics (copies of an old acknowledgement between timeouts let the timeout overflow: C77_counterexample_debug); false for the accepting side as the sender: its lost first packet is acknowledged by the timeout of the other side (counterexample); also false for two packets sent before a flush when both acknowledgements are lost (C77_counterexample_batch), and when datagrams overtake each other although each arrives exactly once (C77_counterexample_overtake): the repeated packet stays in the buffer of the reader and hides everything behind it"
  },
  {
   "property": "C78",
   "status": "partial",
   "theorems": [
    "Utp.C78_partial",
    "Utp.C78_connection_partial",
    "Utp.C78_counterexample"
   ],
   "note": "Proved for every established idle connection on which the server's next number is at most 32768 ahead of the last acknowledged one, and from connect/accept on for first numbers 1 to 32768; the counterexample shows that the echo is lost for 40000. Messages longer than one packet are not covered: handle_client reads once."
  },
  {
   "property": "C79",
   "status": "partial",
   "theorems": [
    "Utp.C79_partial",
    "Utp.C79_sent",
    "Utp.C79_stuck",
    "Utp.C79_counterexample"
   ],
   "note": "Proved unless the 32-bit clock wraps around while the packet waits; if the packet's turn comes in the last half second before that, the wait never ends (counterexample proved)."
  },
  {
   "property": "C80",
   "status": "partial",
   "theorems": [
    "Utp.C80_partial",
    "Utp.C80_sent",
    "Utp.C80_limit",
    "Utp.C80_counterexample"
   ],
   "note": "False of the code: only answers advertise a window. Proved: C80_sent classifies every datagram ever sent (Data and SYN advertise 0, Reset 1 MiB, everything that advertises 1 MiB is an answer to a packet of its receiver); C80_partial: the answer to a data packet advertises 1 MiB; C80_limit: a data packet sent by a socket of this crate limits its receiver to 2800 bytes in flight whatever its congestion window. Counterexample: the limit falls from 4200 to 2800."
  },
  {
   "property": "C81",
   "status": "partial",
   "theorems": [
    "Utp.C81_partial",
    "Utp.C81_ignored",
    "Utp.C81_counterexample"
   ],
   "note": "False of the code: only State packets acknowledge. C81_ignored: a packet of any other type changes none of the 15 fields kept about the data sent, in every build and every state but fresh. C81_partial: State packets do (from C63_ack). Counterexample: a peer that acknowledges only in data packets makes flush resend and time out."
  },
  {
   "property": "C82",
   "status": "partial",
   "theorems": [
    "Utp.C82_partial",
    "Utp.C82_held",
    "Utp.C82_counterexample"
   ],
   "note": "False of the code: the window is advertised but never enforced. C82_partial: in every reachable state at most 65536 packets of at most 1520 bytes are held and 1500 bytes of the packet being read. C82_held: for every n up to 60000, one read whose peer leaves out one packet ends up holding n packets (1520 n bytes) after answering each with a window of 1 MiB. Counterexample: 91.2 MB."
  },
  {
   "property": "C83",
   "status": "partial",
   "theorems": [
    "Utp.C83_partial",
    "Utp.C83_blind",
    "Utp.C83_runs",
    "Utp.C83_counterexample"
   ],
   "note": "False of the code: the source address of a datagram is never compared with the peer's. C83_blind and C83_runs (non-interference): with the same datagrams from any other addresses, every operation and every execution ends in the same socket after the same datagrams; only the destinations of answers and the address returned by recv_from follow the source. C83_partial: the connection is not redirected, and a stranger gets at most one answer per datagram. Counterexample: a stranger's byte is read in the place of the peer's, and a stranger's Reset ends the connection."
  },
  {
   "property": "C84",
   "status": "partial",
   "theorems": [
    "Utp.C84_partial",
    "Utp.C84_reads",
    "Utp.C84_counterexample"
   ],
   "note": "False of the code: the timeout doubles on every timeout and is clamped only when an outstanding packet is acknowledged. C84_partial: after n timeouts every wait is at most max(60 s, first timeout) * 2^n. C84_reads: without send_to and with nothing outstanding the timeout is exactly the first one times 2^n (in 64 bits), whatever arrives in between. Counterexample: a socket that only reads and got everything its peer sent waits 256 s."
  },
  {
   "property": "C85",
   "status": "proved",
   "theorems": [
    "Utp.C85_punctual",
    "Utp.C85_sent",
    "Utp.C85_order"
   ],
   "note": "C85_punctual: the whole history is punctual (an inductive definition over the log and the number of clock readings). C85_sent and C85_order are consequences about one and two datagrams. Readings of the clock made only for log messages are not modelled."
  },
  {
   "property": "C86",
   "status": "partial",
   "theorems": [
    "Utp.C86_connect_partial",
    "Utp.C86_accept_partial",
    "Utp.C86_counterexample_fin",
    "Utp.C86_counterexample_repeat",
    "Utp.C86_counterexample_ahead"
   ],
   "note": "False of the code in three ways: a FIN reports 0; a packet repeated after a timeout reports what was measured when it was first sent; and the delay is the distance of the two clocks whichever is ahead, so that if the peer's clock is ahead a packet that takes longer is reported with a smaller delay. The partial theorems say, for every datagram in the history, which of these values it carries, and from which packet. Sockets made by bind (which can change their identifiers) are not covered."
  },
  {
   "property": "C87",
   "status": "partial",
   "theorems": [
    "Utp.C87_partial",
    "Utp.C87_closed_partial",
    "Utp.C87_counterexample",
    "Utp.C87_counterexample_timeout"
   ],
   "note": "False of the code: a data packet that arrives again after a later one blocks the buffer, and the reader is told the stream has ended although packets behind it were not given out; every call of both sides, close included, returns Ok (C87_counterexample). After a call of recv_from that timed out the next one also reports the end (C87_counterexample_timeout). The partial theorems assume that no data packet arrives again after one with a larger number, that the reader's operating system takes its replies, and at most 65533 packets; C87_closed_partial allows failed calls of the reader if the sender has sent its FIN."
  },
  {
   "property": "C88",
   "status": "partial",
   "theorems": [
    "Utp.C88_partial",
    "Utp.C88_order_partial",
    "Utp.C88_flushed_partial",
    "Utp.C88_counterexample",
    "Utp.C88_counterexample_order"
   ],
   "note": "False of the code: the server's first data packet has the number of its answer to the SYN, so the client counts it as received before it was sent. If it is lost, send_to, flush and close of the server return Ok and the client reads the end of the stream without a byte (C88_counterexample); if only the first two packets change places, the first piece is lost (C88_counterexample_order). Proved: the bytes read are a prefix of the bytes sent, or the second packet came before the first and they are a prefix of the rest; all pieces but the first have arrived after an Ok flush. The theorems assume numbers that do not wrap around and are not 0, and that the client's operating system takes its replies (C88_partial, C88_order_partial)."
  },
  {
   "property": "C89",
   "status": "proved",
   "theorems": [
    "Utp.C89_op",
    "Utp.C89_runs",
    "Utp.C89_bind",
    "Utp.C89_connect",
    "Utp.C89_accept",
    "Utp.C89_origin",
    "Utp.C89_sent",
    "Utp.C89_read",
    "Utp.C89_translate"
   ],
   "note": "Two-run proof over all of the socket model. C89_sent: with other payloads of the same lengths the datagrams sent are the same byte for byte. C89_read: with other written bytes of the same lengths all results are the same. C89_translate: bytes translated on the way are translated when read. C89_origin: each byte read was in a payload. Datagrams outside the grammar are the same in both executions."
  },
  {
   "property": "C90",
   "status": "partial",
   "theorems": [
    "Utp.C90_counterexample",
    "Utp.C90_nests",
    "Utp.C90_never",
    "Utp.C90_cause_partial",
    "Utp.C90_depth_partial",
    "Utp.C90_connected_partial"
   ],
   "note": "False of the code. C90_counterexample: on an accepted socket with two packets outstanding, one selective ack sent over and over leaves arbitrarily many receives in progress inside each other, and flush never returns although each wait is limited to half a second. C90_nests and C90_never say so of every socket and packet in that situation. What holds: a receive calls itself only on a State packet of the connection with 2800 bytes outstanding, so the depth is at most the number of State packets received since the outermost call."
  },
  {
   "property": "C91",
   "status": "partial",
   "theorems": [
    "Utp.C91_measured_partial",
    "Utp.C91_counterexample_timeout",
    "Utp.C91_counterexample_resent",
    "Utp.C91_counterexample_unsent"
   ],
   "note": "False of the code. C91_counterexample_timeout: a timeout overwrites the timestamp, so an ack of the first copy gives a sample that is too short. C91_counterexample_resent: a fast resend stamps only a clone, so the ack of the second copy is measured from the first. C91_counterexample_unsent: a packet that send_packet skipped keeps timestamp 0, so the sample is the whole clock. What holds: each new sample is the time since some copy of the acknowledged packet was sent, or the packet was never stamped."
  },
  {
   "property": "C92",
   "status": "proved",
   "theorems": [
    "Utp.C92_in_order",
    "Utp.C92_once",
    "Utp.C92_silent"
   ],
   "note": "Holds through all operations, also those that fail or are dropped, and through nested receives. C92_once is about up to 65536 packets because numbers repeat after that. Examples beside the theorems show that each of the three signs alone does cause a second transmission. Sockets still in the handshake (New, SynSent) are not covered: they have nothing to send again but the SYN (C39)."
  },
  {
   "property": "C93",
   "status": "partial",
   "theorems": [
    "Utp.C93_partial",
    "Utp.C93_big_partial",
    "Utp.C93_counterexample"
   ],
   "note": "False of the code. When a packet is read in parts and a later packet is received inside send_to, flush or close before the rest is read, removing the packet read sets the number back to its own (C93_counterexample: answers 2, 3, 2). C93_partial: never backwards if the application finishes a packet partly read before it writes, flushes or closes, and no read has an empty buffer. C93_big_partial: never backwards if every read has room for 1500 bytes. Both hold for all networks, also hostile ones. The limit on the number of receives keeps the 16-bit numbers from repeating."
  },
  {
   "property": "C94",
   "status": "partial",
   "theorems": [
    "Utp.C94_partial",
    "Utp.C94_gap",
    "Utp.C94_counterexample"
   ],
   "note": "False of the code. When a gap is filled, the answer acknowledges only the packet that filled it, without a selective ack (C94_gap, for every connected socket in a build without overflow checks); the packets behind it are acknowledged only by a later answer, after the application has read them. C94_counterexample: packets 3 and 2 arrive and are both read, but only 2 is ever acknowledged, so the sender must send 3 again. C94_partial: if no packet arrives with a number more than one above the highest so far, and the application finishes a packet partly read before it writes, flushes or closes, every State packet acknowledges the highest number that had arrived, over 32767 receives. Packets of any type count there, because the code lets any packet move the number on (C48)."
  },
  {
   "property": "C95",
   "status": "partial",
   "theorems": [
    "Utp.C95_partial",
    "Utp.C95_read",
    "Utp.C95_acknowledged",
    "Utp.C95_counterexample"
   ],
   "note": "False of the code: the buffer of recv holds 1520 bytes and what is longer is cut by the UDP receive without notice. C95_read: of packets of any size that arrive in order exactly the payload within the first 1520 bytes of each is read, in both builds. C95_acknowledged: every packet that is longer is acknowledged all the same and counts as read. Counterexample: 1500 of 1600 bytes are read, then the next packet. C95_partial: if no packet is longer than 1520 bytes, everything is read. It is assumed there that every reply is taken by the operating system, and that the extensions leave room for some payload."
  },
  {
   "property": "C96",
   "status": "partial",
   "theorems": [
    "Utp.C96_partial",
    "Utp.C96_forever",
    "Utp.C96_counterexample"
   ],
   "note": "False of the code: a Reset with the connection id of another connection is answered with a Reset like any other stray packet. C96_forever: two sockets of different connections that wait in recv_from and get each other's datagrams answer each other's Resets for ever, for every run length; nothing else about them changes and neither call returns. C96_partial: a Reset of this connection is not answered and the receive fails."
  },
  {
   "property": "C97",
   "status": "partial",
   "theorems": [
    "Utp.C97_partial",
    "Utp.C97_all_partial",
    "Utp.C97_session_partial",
    "Utp.C97_counterexample"
   ],
   "note": "Proved when no data packet arrives again after one with a larger number, the numbers do not wrap around, and this side only reads and its replies are taken by the operating system: every call returns at least one byte and neither receives nor sends anything (C97_partial), so as many calls as there are bytes left return them all (C97_all_partial); the same for the two ends of a connection over any network that does not forge datagrams (C97_session_partial). False if an old packet comes back: it goes to the front of the buffer and hides what is behind it (C97_counterexample)."
  },
  {
   "property": "C98",
   "status": "partial",
   "theorems": [
    "Utp.C98_partial",
    "Utp.C98_counterexample"
   ],
   "note": "False of the code: the documentation assumes an initial timeout of 500 ms, but it is 1000 ms, so a new socket waits 31 seconds (counterexample, for recv_from, flush and close). C98_partial: with the timeout T and the limit n the call fails with TimedOut after exactly T * (2^n - 1) ms of waiting and the socket is closed, in every reachable state; so the documented time is right exactly when T is at its minimum of 500 ms."
  },
  {
   "property": "C99",
   "status": "partial",
   "theorems": [
    "Utp.C99_partial",
    "Utp.C99_counterexample"
   ],
   "note": "False of the code: recv returns the source of the datagram it received last, though the bytes come from the buffer; an acknowledgement from a stranger, even with a foreign identifier, makes recv_from report the bytes of the peer with the address of the stranger (counterexample). C99_partial: the address is that of the peer, or bytes were read and it is the source of a valid packet received during this very call; so it is right whenever no valid packet comes from elsewhere meanwhile, and always when no bytes are returned."
  },
  {
   "property": "C100",
   "status": "partial",
   "theorems": [
    "Utp.C100_partial",
    "Utp.C100_counterexample"
   ],
   "note": "False of the code: the selective acknowledgement has one bit for every number up to the furthest packet held, so two datagrams of 21 bytes, from any address that knows the identifier, are answered by one of 8214 bytes (counterexample). C100_partial: data packets have at most 1400 bytes, Reset and SYN packets 20, State and FIN packets 20 or the exact size a received data packet needs; nothing exceeds 8214 bytes, and nothing exceeds 1400 bytes unless a data packet more than 11000 numbers ahead was received or 65535 is acknowledged."
  },
  {
   "property": "C101",
   "status": "partial",
   "theorems": [
    "Utp.C101_partial",
    "Utp.C101_mute",
    "Utp.C101_counterexample"
   ],
   "note": "False of the code: the number is stored as last_acked whatever it is, and send_packet does not transmit packets that seem to be acknowledged. C101_partial: such a packet forgets no outstanding packet, measures nothing, leaves congestion window and timeout alone and sends nothing; all it changes is spelled out. C101_mute (for every connected socket with less than 2800 bytes outstanding): after one packet acknowledging one of the 32767 numbers that follow the next one, send_to of up to 1380 bytes returns Ok and transmits nothing. Counterexample: the data goes out only when flush times out."
  },
  {
   "property": "C102",
   "status": "partial",
   "theorems": [
    "Utp.C102_partial",
    "Utp.C102_effect",
    "Utp.C102_times",
    "Utp.C102_counterexample"
   ],
   "note": "False of the code when the receiver sends selective acknowledgements, as this crate does. C102_effect: the complete effect on the socket of a State packet with a bitmap that acknowledges nothing new; the window is halved (not below 2800) exactly if it is the third with its number, or three bits are set, or a bit is unset for a number before the last outstanding one. C102_times: n + 1 of them leave max(2800, window / 2^(n+1)), with nothing else having been lost. C102_partial: acknowledgements without a bitmap halve it once, the third time. Counterexample: one of four packets is lost and the window goes from 7000 to 3500 to 2800. C102_effect excludes bitmaps whose numbers wrap around (C19_wrap_counterexample) and a full window (the retransmission waits, C79)."
  },
  {
   "property": "C103",
   "status": "partial",
   "theorems": [
    "Utp.C103_partial",
    "Utp.C103_read",
    "Utp.C103_nothing",
    "Utp.C103_counterexample"
   ],
   "note": "False of the code for reads. C103_read: recv_from into an empty buffer returns Ok only once the connection is closed, whatever data is there and whatever arrives; counterexample: a byte could be read, but the call waits until it times out and closes the connection. C103_nothing: for any buffer, no bytes means closed. C103_partial: send_to does nothing at all if no packets are left from a failed one, and the read returns at once on a closed socket and keeps what could be read."
  },
  {
   "property": "C104",
   "status": "proved",
   "theorems": [
    "Utp.C104_enters",
    "Utp.C104_stays",
    "Utp.C104_happens"
   ],
   "note": "A defect, stated as what the code does: C104_enters gives the state after the late packet and the reply, C104_stays that this state persists in every execution and that recv_from returns Ok only with no bytes on a closed connection; C104_happens is a concrete case, and both theorems are applied to it."
  },
  {
   "property": "C105",
   "status": "proved",
   "theorems": [
    "Utp.C105_lost",
    "Utp.C105_silent"
   ],
   "note": "A defect, stated as what the code does: C105_lost gives the worlds after both flushes (both Ok, two datagrams each, nothing to read, ready for more), C105_silent that a later transfer is delivered alone. The example applies both to a concrete pair of sockets. General form of C31_counterexample."
  },
  {
   "property": "C106",
   "status": "proved",
   "theorems": [
    "Utp.C106_shown",
    "Utp.C106_accepted",
    "Utp.C106_held",
    "Utp.C106_sent",
    "Utp.C106_elapsed",
    "Utp.C106_errors"
   ],
   "note": "The layout in which debug_struct writes the fields is left to the standard library; the fields and their values are modelled. The message inside SocketError::Other, made at src/socket.rs:952 and 1237 from the state and the packet type, is dropped."
  },
  {
   "property": "C107",
   "status": "proved",
   "theorems": [
    "Utp.C107_lost"
   ],
   "note": "The wait ends if the timeouts do not overflow 64 bits (hypothesis on timeout and retries, true of a new connection). A message of several packets is not covered."
  },
  {
   "property": "C108",
   "status": "partial",
   "theorems": [
    "Utp.C108_transfer_partial",
    "Utp.C108_close"
   ],
   "note": "As C67: batches whose packets stay within 32768 numbers of the last acknowledged one. One task per stream; the close is the method of UtpStream (poll_close panics, C52)."
  },
  {
   "property": "C109",
   "status": "partial",
   "theorems": [
    "Utp.C109_fin_lost_partial",
    "Utp.C109_answer_lost",
    "Utp.C109_counterexample"
   ],
   "note": "False if the answer to the FIN is lost: the side that answered is done with the connection and never answers a repeated FIN, so close fails with ConnectionTimedOut after all its attempts, whatever their number, though the other side has seen an orderly end. True if FINs are lost but the answer arrives."
  },
  {
   "property": "C110",
   "status": "partial",
   "theorems": [
    "Utp.C110_clock_partial",
    "Utp.C110_counterexample"
   ],
   "note": "False for a socket with unacknowledged data: a fast retransmission waits for room in the send window while the clock shows less than half a second, and what it reads meanwhile is thrown away, so the clock decides which bytes recv_from returns. True while nothing is outstanding."
  },
  {
   "property": "C111",
   "status": "proved",
   "theorems": [
    "Utp.C111_identifiers",
    "Utp.C111_connect",
    "Utp.C111_accept"
   ],
   "note": "The proof follows both executions through all functions, including retransmissions and the recursive receives. accept is excluded for identifier 65535, where a debug build panics (C45); a socket in state New that receives a SYN through recv is covered by accept only."
  },
  {
   "property": "C112",
   "status": "partial",
   "theorems": [
    "Utp.C112_start_partial",
    "Utp.C112_low_partial",
    "Utp.C112_counterexample_accept",
    "Utp.C112_counterexample_sack",
    "Utp.C112_counterexample_debug"
   ],
   "note": "False as stated, in three ways, each with a counterexample: accept sets the last acknowledged number to 0 whichever number it draws, so the first packet of one connection is sent and that of another is not; the numbers of packets a selective acknowledgement reports lost are compared without regard to wrapping, so a lost packet is not sent again; a debug build panics when 65535 is acknowledged three times more. Proved, when the last acknowledged number is shifted too, for release builds without selective acknowledgements (C112_start_partial), and for both build modes and with selective acknowledgements as long as the shifted numbers do not wrap around (C112_low_partial)."
  },
  {
   "property": "C113",
   "status": "partial",
   "theorems": [
    "Utp.C113_start_partial",
    "Utp.C113_accept_partial",
    "Utp.C113_counterexample_connect",
    "Utp.C113_counterexample_order",
    "Utp.C113_counterexample_debug"
   ],
   "note": "False as stated, in three ways, each with a counterexample: a connecting socket does not read the first packet of a peer if it has the number 0; packets that change places around the wrap-around are read in the wrong order and one is lost, in release builds; the same datagrams panic in debug builds. Proved in both build modes, with losses, reordering and selective acknowledgements, as long as the numbers stay below 65535 in both executions."
  },
  {
   "property": "C114",
   "status": "proved",
   "theorems": [
    "Utp.C114_hints"
   ],
   "note": "For all surroundings related by OtherHints; covers malformed datagrams and selective acknowledgements."
  },
  {
   "property": "C115",
   "status": "proved",
   "theorems": [
    "Utp.C115_runs",
    "Utp.C115_times",
    "Utp.C115_connect",
    "Utp.C115_accept"
   ],
   "note": "A relation LagWorld between the two executions that every step keeps; covers malformed datagrams and selective acknowledgements, and worlds that already differ."
  },
  {
   "property": "C116",
   "status": "proved",
   "theorems": [
    "Utp.C116_runs",
    "Utp.C116_window",
    "Utp.C116_connect",
    "Utp.C116_accept"
   ],
   "note": "A relation RoomWorld between the two executions that every step keeps. An example shows that 2801 bytes do make a difference."
  },
  {
   "property": "C117",
   "status": "proved",
   "theorems": [
    "Utp.C117_runs",
    "Utp.C117_exts",
    "Utp.C117_connect",
    "Utp.C117_accept"
   ],
   "note": "A relation ExtWorld between the two executions that every step keeps. Datagrams above 1500 bytes are left out since an extension would then change where they are cut off; datagrams that are the same in both executions may have any form."
  },
  {
   "property": "C118",
   "status": "proved",
   "theorems": [
    "Utp.C118_runs",
    "Utp.C118_unread",
    "Utp.C118_connect",
    "Utp.C118_accept",
    "Utp.C118_sharp"
   ],
   "note": "C118_sharp shows by concrete executions that each of the parts named matters. A relation UnreadWorld between the two executions that every step keeps. Datagrams above 1500 bytes may differ in nothing, since a change of length would change where they are cut off."
  },
  {
   "property": "C119",
   "status": "proved",
   "theorems": [
    "Utp.C119_runs",
    "Utp.C119_set"
   ],
   "note": "Every step gives the same from the world with another limit, and changes nothing but the rest of the world. The bound is sharp: with g timeouts in a row and the limit g the call fails (example; C42 in general)."
  },
  {
   "property": "C120",
   "status": "proved",
   "theorems": [
    "Utp.C120_split",
    "Utp.C120_many",
    "Utp.C120_sharp"
   ],
   "note": "Sending the queue without waiting does not look at what is queued behind nor at the next number; then induction on the queue. C120_sharp: at another place than a packet boundary the two are not the same."
  },
  {
   "property": "C121",
   "status": "proved",
   "theorems": [
    "Utp.C121_runs",
    "Utp.C121_log",
    "Utp.C121_connect",
    "Utp.C121_accept"
   ],
   "note": "Every step gives the same from the world with other values of the two fields. Local addresses are only reported by local_addr."
  },
  {
   "property": "C122",
   "status": "proved",
   "theorems": [
    "Utp.C122_pieces",
    "Utp.C122_sharp"
   ],
   "note": "The buffer size is only used in the last step, the flush of the incoming buffer; there a case analysis. C122_sharp: if nothing of the packet remains, the two are not the same."
  }
 ]
}