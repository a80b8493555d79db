{"id": "C01", "title": "Datagram acceptance is exactly the uTP grammar", "statement": "A received datagram is accepted if and only if it is a 20-byte header with version 1 and a type code 0..4, followed by a chain of extensions (each with a non-zero length that is a multiple of 4 and fits in the datagram, the chain ended by a zero type code), followed by an arbitrary payload. Every other byte string is rejected with an error, and deciding never panics or loops.", "quantifier": "all byte strings of any length", "why_tests_cant": "The set of byte strings is infinite and the interesting ones (truncated extension chains, zero lengths) are sparse; quickcheck samples almost never form a chain.", "anchors": ["src/packet.rs: PacketHeader::try_from, check_extensions, Packet::try_from"]}
{"id": "C02", "title": "Decoding is lossless and header fields read back in network order", "statement": "An accepted datagram is kept byte for byte, and each header field (type, version, extension, connection id, timestamp, timestamp difference, window, sequence and acknowledgement number) reads as the big-endian value at its fixed offset; writing one field changes only that field and reads back exactly the value written.", "quantifier": "all accepted datagrams and all field values", "why_tests_cant": "Needs all 2^16/2^32 values of each field against all other field contents.", "anchors": ["src/packet.rs: make_getter!, make_setter!, Packet::set_type, Packet::set_timestamp, Packet::as_ref"]}
{"id": "C03", "title": "Payload and extensions are recovered exactly, without out-of-bounds access", "statement": "For every accepted datagram, enumerating the extensions yields exactly the extension chain of the grammar (types and data in order) and the payload is exactly what follows the chain; neither can panic or run forever.", "quantifier": "all accepted datagrams", "why_tests_cant": "An index error would show only for particular combinations of chain lengths and datagram length.", "anchors": ["src/packet.rs: Packet::payload, ExtensionIterator::next, Packet::extensions"]}
{"id": "C04", "title": "Adding a selective acknowledgement keeps the packet well formed", "statement": "Attaching a selective-ack bitmap to a packet adds exactly one extension, last in the chain, carrying exactly that bitmap, and changes neither payload, earlier extensions nor header fields; the result is accepted by the decoder.", "quantifier": "all valid packets and all bitmaps whose length is a positive multiple of 4", "why_tests_cant": "Bitmap sizes and pre-existing chains are unbounded; the single length byte can only go wrong at 256 bytes.", "anchors": ["src/packet.rs: Packet::set_sack, check_extensions"]}
{"id": "C05", "title": "Selective-ack bits are enumerated least significant bit first", "statement": "Iterating the bits of a selective-ack bitmap yields exactly 8 booleans per byte, the i-th being bit (i mod 8) of byte i/8, then stops for ever; the reported number of ones equals the number of true items; the reported remaining length is right.", "quantifier": "all byte strings and all positions in the iteration", "why_tests_cant": "Infinite family of bitmaps; the length report must be right at every intermediate position.", "anchors": ["src/bit_iterator.rs: BitIterator"]}
{"id": "C06", "title": "Packet type and extension codes are a bijection with their wire codes", "statement": "Packet type codes 0..4 map one-to-one to Data, Fin, State, Reset, Syn and every other code is rejected; extension codes map one-to-one to their wire byte for all 256 values.", "quantifier": "all 256 byte values", "why_tests_cant": "Simple but must be total; tests check a handful of codes.", "anchors": ["src/packet.rs: PacketType::try_from, u8::from, ExtensionType::from"]}
{"id": "C07", "title": "Timestamps are microseconds modulo 2^32", "statement": "The timestamp placed in packets is the number of microseconds since the epoch modulo 2^32, the difference of two timestamps is the exact signed difference of the 32-bit values, the absolute difference is symmetric, and a difference placed in a header field reads back exactly.", "quantifier": "all clock readings", "why_tests_cant": "Overflow only shows for particular clock values (the product of seconds by a million overflows 64 and 32 bits).", "anchors": ["src/time.rs: now_microseconds, Timestamp::sub, Delay", "src/util.rs: abs_diff"]}
{"id": "C08", "title": "Connection identifiers are always a consecutive pair", "statement": "Whatever random number is drawn, the two connection identifiers of a new socket differ by exactly one without overflow, and after the handshake the accepting side's identifiers mirror the connecting side's, so each side accepts the identifier the other one sends.", "quantifier": "all 65536 random draws and all handshakes", "why_tests_cant": "The draw is random; the boundary value 65535 occurs once in 65536 runs.", "anchors": ["src/util.rs: generate_sequential_identifiers", "src/socket.rs: UtpSocket::from_raw_parts, UtpSocket::handle_packet, UtpSocket::connect, UtpListener::accept"]}
{"id": "C09", "title": "The congestion window stays inside its bounds", "statement": "After every acknowledgement of outstanding data the congestion window is at least two segments and at most one segment more than the bytes in flight (or two segments), after a detected loss it is at least two segments and does not grow, after a timeout it is exactly one segment, and in every reachable state it is at least one segment.", "quantifier": "all reachable socket states and all incoming packets, whatever the floating-point delay arithmetic returns", "why_tests_cant": "Depends on unbounded histories of delays and floating-point results.", "anchors": ["src/socket.rs: UtpSocket::update_congestion_window, UtpSocket::handle_state_packet, UtpSocket::handle_receive_timeout"]}
{"id": "C10", "title": "The retransmission timeout is clamped on every measured acknowledgement and doubles on every timeout", "statement": "Each acknowledgement of outstanding data leaves the timeout between 500 ms and 60 s; each timeout doubles it; nothing else changes it. Without an acknowledgement in between it is not clamped.", "quantifier": "all reachable socket states, all packets, all timeouts", "why_tests_cant": "Depends on unbounded sequences of measurements and timeouts.", "anchors": ["src/socket.rs: UtpSocket::update_congestion_timeout, UtpSocket::handle_receive_timeout"]}
{"id": "C11", "title": "Round-trip estimation never overflows", "statement": "In every history the smoothed round-trip time and its variance stay between 0 and the largest possible measurement (4294967 ms), so the 32-bit signed arithmetic that computes them never overflows.", "quantifier": "all histories of acknowledgements and clock readings", "why_tests_cant": "An overflow would need adversarial clock sequences of unbounded length.", "anchors": ["src/socket.rs: UtpSocket::update_congestion_timeout, UtpSocket::handle_state_packet"]}
{"id": "C12", "title": "The base-delay history holds at most ten per-minute minima", "statement": "In every history at most 10 base-delay samples are kept, the list is never read while empty, a sample within the current minute can only lower the newest entry, a new minute appends and drops only the oldest entry, and the base delay used is the minimum of the entries.", "quantifier": "all histories of samples and clock readings", "why_tests_cant": "Unbounded histories; index arithmetic on an empty list would panic only for particular first samples.", "anchors": ["src/socket.rs: UtpSocket::update_base_delay, UtpSocket::min_base_delay"]}
{"id": "C13", "title": "The delay filter is a weighted average", "statement": "The filtered current delay of a non-empty window of samples lies between the smallest and the largest sample, equals the sample when there is one, and is 0 for none; old samples are removed only from the front and the newest sample is always kept.", "quantifier": "all sample windows; over exact rationals for all smoothing factors between 0 and 1, in double precision for the factor of the code", "why_tests_cant": "Infinite sample space.", "anchors": ["src/util.rs: ewma", "src/socket.rs: UtpSocket::filtered_current_delay, UtpSocket::update_current_delay"]}
{"id": "C14", "title": "send_to frames the whole buffer, in order, in bounded packets", "statement": "When send_to returns Ok(n), n is the buffer length, and the buffer was cut into consecutive pieces, each non-empty and at most 1380 bytes, whose concatenation is the buffer, carried by packets with consecutive sequence numbers modulo 2^16 starting at the previous next-sequence number, each datagram at most 1400 bytes.", "quantifier": "all buffers of any length, all starting sequence numbers, all network behaviours during the call", "why_tests_cant": "Buffer length and wrap-around positions are unbounded.", "anchors": ["src/socket.rs: UtpSocket::send_to, UtpSocket::send"]}
{"id": "C15", "title": "Every transmitted data packet carries the bytes its sequence number stands for", "statement": "Whatever the network does and however often packets are retransmitted, every data datagram a connected socket ever emits with the i-th sequence number carries exactly the i-th piece of the data given to send_to.", "quantifier": "all executions: operations, network events, timeouts, clock readings, send failures", "why_tests_cant": "Quantifies over all loss/timeout/ack schedules, including nested receive loops during sending.", "anchors": ["src/socket.rs: UtpSocket::send_to, UtpSocket::send_packet, UtpSocket::resend_lost_packet, UtpSocket::handle_receive_timeout"]}
{"id": "C16", "title": "Acknowledgements are cumulative, also across sequence wrap-around", "statement": "When outstanding packets have consecutive sequence numbers (at most 65536 of them), an acknowledgement of the k-th forgets exactly the first k+1 packets, wherever the numbers wrap; an acknowledgement of any other number forgets nothing; packets are forgotten in no other way.", "quantifier": "all windows, all starting sequence numbers, all acknowledgement numbers", "why_tests_cant": "Wrap-around positions and window sizes are too many to enumerate.", "anchors": ["src/socket.rs: UtpSocket::advance_send_window, UtpSocket::handle_state_packet"]}
{"id": "C17", "title": "Bytes in flight are accounted exactly", "statement": "In every reachable state the in-flight byte count used for rate control equals the total size of the sent and not yet acknowledged packets (as a 32-bit value), so it is zero when nothing is outstanding and never underflows.", "quantifier": "all executions", "why_tests_cant": "An accounting slip accumulates over unbounded histories.", "anchors": ["src/socket.rs: UtpSocket::send, UtpSocket::advance_send_window"]}
{"id": "C18", "title": "Sending beyond the window waits at least half a second", "statement": "A packet is transmitted by send_to, while the bytes in flight are at or above the limit computed from the congestion window and the peer's advertised window (never less than two segments), only after 500 ms have passed since its turn came.", "quantifier": "all executions and clock readings", "why_tests_cant": "Depends on the interleaving of acknowledgements and clock readings.", "anchors": ["src/socket.rs: UtpSocket::send_packet"]}
{"id": "C19", "title": "Fast retransmission", "statement": "When the third State packet in a row acknowledges the same number while the next packet is outstanding and there is room in the window, that packet is retransmitted at once, with the same content, unless the packet carries a selective ack; packets a selective ack reports missing below the last outstanding one are retransmitted.", "quantifier": "all connected states and acknowledgement packets", "why_tests_cant": "Depends on the whole window and bitmap contents.", "anchors": ["src/socket.rs: UtpSocket::handle_state_packet, UtpSocket::resend_lost_packet"]}
{"id": "C20", "title": "What is sent on a timeout", "statement": "On each receive timeout the socket sends: the oldest unacknowledged packet (only its timestamp refreshed) if there is one; otherwise a FIN if it is closing; otherwise three State packets acknowledging the last in-order packet; nothing if it is not connected yet.", "quantifier": "all reachable socket states", "why_tests_cant": "Needs every combination of state, window and queue.", "anchors": ["src/socket.rs: UtpSocket::handle_receive_timeout, UtpSocket::send_fast_resend_request"]}
{"id": "C21", "title": "flush returns Ok only when everything sent is acknowledged", "statement": "If all previous sends succeeded and flush returns Ok then the peer has acknowledged, with a State packet, the last sequence number used; nothing is outstanding.", "quantifier": "all executions", "why_tests_cant": "Quantifies over all network schedules.", "anchors": ["src/socket.rs: UtpSocket::flush, UtpSocket::advance_send_window"]}
{"id": "C22", "title": "A failed or cancelled send_to does not corrupt the stream", "statement": "If send_to fails or its future is dropped midway, later sends still deliver a gap-free byte stream: no sequence number is skipped for ever.", "quantifier": "all failure and cancellation points", "why_tests_cant": "Cancellation points are schedule dependent.", "anchors": ["src/socket.rs: UtpSocket::send, UtpSocket::send_packet"]}
{"id": "C23", "title": "send_to transmits every packet at least once", "statement": "When send_to returns Ok, each packet of the buffer was put on the wire at least once during the call.", "quantifier": "all connected sockets, all initial sequence numbers, all network behaviours", "why_tests_cant": "The first sequence number of an accepting socket is random; half of the values behave differently.", "anchors": ["src/socket.rs: UtpSocket::send_packet, UtpSocket::handle_packet"]}
{"id": "C24", "title": "recv_from returns a prefix of the byte stream sent", "statement": "Whatever the network loses, reorders, delays or duplicates, the bytes returned by successive recv_from calls are a prefix of the bytes the peer passed to send_to: no loss in the middle, no duplication, no reordering, no foreign bytes.", "quantifier": "all network schedules, all buffer sizes, all stream contents", "why_tests_cant": "Quantifies over all interleavings of loss, duplication and reordering.", "anchors": ["src/socket.rs: UtpSocket::recv_from, UtpSocket::recv, UtpSocket::flush_incoming_buffer, UtpSocket::insert_into_buffer, UtpSocket::handle_packet"]}
{"id": "C25", "title": "In-order traffic is delivered completely, for streams of any length", "statement": "If data packets arrive in sequence order (each one possibly repeated before the next) then every byte is returned exactly once, however long the stream is, including across sequence number wrap-around.", "quantifier": "all stream lengths, contents, initial sequence numbers and buffer sizes", "why_tests_cant": "A wrap-around needs more than 65536 packets; every starting point must work.", "anchors": ["src/socket.rs: UtpSocket::handle_packet, UtpSocket::insert_into_buffer, UtpSocket::flush_incoming_buffer"]}
{"id": "C26", "title": "Reads with small buffers lose nothing", "statement": "Reading a packet with any sequence of non-empty buffers returns its payload split at those sizes, nothing lost, repeated or reordered, and the next packet only afterwards.", "quantifier": "all payloads and all sequences of buffer sizes", "why_tests_cant": "Infinite combinations of sizes.", "anchors": ["src/socket.rs: UtpSocket::flush_incoming_buffer, UtpSocket::advance_incoming_buffer"]}
{"id": "C27", "title": "Duplicates are harmless", "statement": "Receiving again a data packet that was already received changes nothing that the user can read, now or later.", "quantifier": "all states and all duplicated packets", "why_tests_cant": "Which duplicate arrives when is schedule dependent.", "anchors": ["src/socket.rs: UtpSocket::recv, UtpSocket::insert_into_buffer"]}
{"id": "C28", "title": "The reorder buffer is sorted and duplicate free", "statement": "In every reachable state the packets held for reordering have strictly increasing sequence numbers, each is a valid data packet, and re-inserting a sequence number already held keeps the first copy.", "quantifier": "all executions", "why_tests_cant": "Unbounded histories of arrivals.", "anchors": ["src/socket.rs: UtpSocket::insert_into_buffer, UtpSocket::advance_incoming_buffer"]}
{"id": "C29", "title": "Packets of another connection have no effect", "statement": "A packet whose connection identifier belongs to neither direction of the connection is answered with a Reset and changes nothing: no acknowledgement, no data delivered.", "quantifier": "all established sockets and all packets", "why_tests_cant": "All identifiers, types, sequence numbers.", "anchors": ["src/socket.rs: UtpSocket::handle_packet, UtpSocket::recv"]}
{"id": "C30", "title": "Selective acknowledgements report exactly what is buffered", "statement": "The bitmap attached to the reply to an out-of-order packet has bit i set if and only if the packet with the acknowledged number plus 2 plus i is held in the reorder buffer; its length is a positive multiple of 4; it is absent when nothing is held.", "quantifier": "all reachable states and out-of-order packets", "why_tests_cant": "All buffer contents; wrap-around.", "anchors": ["src/socket.rs: UtpSocket::build_selective_ack, UtpSocket::handle_data_packet"]}
{"id": "C31", "title": "Data that arrives while sending, flushing or closing is kept for recv_from", "statement": "Data received while send_to, flush or close waits for acknowledgements is returned by later recv_from calls.", "quantifier": "all executions with traffic in both directions", "why_tests_cant": "Needs simultaneous two-way traffic at specific moments.", "anchors": ["src/socket.rs: UtpSocket::flush, UtpSocket::send_packet, UtpSocket::close, UtpSocket::recv"]}
{"id": "C32", "title": "Malformed datagrams are ignored", "statement": "A datagram that is not a valid packet changes nothing in the connection and triggers no reply; the receive call carries on waiting.", "quantifier": "all established sockets and all rejected byte strings", "why_tests_cant": "Infinite inputs.", "anchors": ["src/socket.rs: UtpSocket::recv"]}
{"id": "C33", "title": "Connection state machine", "statement": "A socket only moves along New -> Connected (on SYN), SynSent -> Connected (on State), Connected/FinSent/Reset -> FinSent (on close), Connected/FinSent -> Closed, any -> Closed when the retries are exhausted, any -> Reset; it never returns to an unconnected state, and once established its peer address, connection identifiers never change.", "quantifier": "all executions", "why_tests_cant": "All histories.", "anchors": ["src/socket.rs: UtpSocket::handle_packet, UtpSocket::recv, UtpSocket::close"]}
{"id": "C34", "title": "close: everything acknowledged before FIN, closed afterwards, idempotent", "statement": "close on an established connection emits its FIN only when no sent data is unacknowledged; if it returns Ok the socket is closed; closing a closed or never connected socket returns Ok and sends nothing.", "quantifier": "all executions", "why_tests_cant": "Schedules of acks and timeouts around closing.", "anchors": ["src/socket.rs: UtpSocket::close"]}
{"id": "C35", "title": "End of stream is sticky", "statement": "Once the peer's FIN closed the connection, recv_from returns what is still deliverable and then 0 bytes for ever, without touching the network.", "quantifier": "all closed states, all later calls", "why_tests_cant": "All histories.", "anchors": ["src/socket.rs: UtpSocket::recv_from"]}
{"id": "C36", "title": "A reset is reported and sticky", "statement": "After a Reset for this connection is received, the receive call that got it fails with ConnectionReset, and later recv_from calls return remaining deliverable data and then ConnectionReset for ever, without touching the network.", "quantifier": "all established states, all later calls", "why_tests_cant": "All histories.", "anchors": ["src/socket.rs: UtpSocket::recv_from, UtpSocket::handle_packet"]}
{"id": "C37", "title": "Sending on a closed socket fails cleanly", "statement": "send_to on a closed socket returns a NotConnected error, sends nothing and changes nothing; a closed socket stays closed for sending.", "quantifier": "all closed states and later histories", "why_tests_cant": "All histories.", "anchors": ["src/socket.rs: UtpSocket::send_to"]}
{"id": "C38", "title": "peer_addr reflects the connection", "statement": "peer_addr returns the address the handshake packet came from exactly while the connection is established or closing, and NotConnected before and after.", "quantifier": "all executions", "why_tests_cant": "All histories.", "anchors": ["src/socket.rs: UtpSocket::peer_addr"]}
{"id": "C39", "title": "connect: bounded, backed-off attempts, success means connected", "statement": "connect sends at most 5 SYN packets to the first resolved address, all with the same sequence number and connection id, waiting 1, 2, 4, 8, 16 s; it fails if no reply or an invalid or unexpected reply arrives, and returns Ok only for an established connection.", "quantifier": "all network behaviours during the handshake", "why_tests_cant": "All reply/timeouts combinations and reply contents.", "anchors": ["src/socket.rs: UtpSocket::connect, take_address"]}
{"id": "C40", "title": "The handshake tolerates loss of the SYN reply", "statement": "If the reply to the first SYN is lost, the retransmitted SYN completes the connection.", "quantifier": "all loss patterns of the handshake", "why_tests_cant": "Loss at an exact moment.", "anchors": ["src/socket.rs: UtpSocket::connect, UtpSocket::handle_packet"]}
{"id": "C41", "title": "accept yields an established socket exactly for SYN packets", "statement": "accept returns a socket, connected to the sender of the datagram, exactly when the datagram is a valid SYN and the reply could be sent; the reply acknowledges the SYN with its connection id. Other datagrams give an error, and the listener keeps working; the stream of incoming connections never ends.", "quantifier": "all datagrams", "why_tests_cant": "Infinite inputs.", "anchors": ["src/socket.rs: UtpListener::accept, Incoming::poll_next"]}
{"id": "C42", "title": "Receiving gives up after the configured number of timeouts", "statement": "A single wait for a packet times out at most max_retransmission_retries times, with the waiting time doubling each time, then closes the socket and fails with TimedOut; with the defaults that is 5 timeouts.", "quantifier": "all states and all values of the limit", "why_tests_cant": "All values of a u32 limit; long waits.", "anchors": ["src/socket.rs: UtpSocket::recv"]}
{"id": "C43", "title": "FIN handling", "statement": "A FIN on an established connection closes it at once and is acknowledged by a State packet; when the FIN is the next in sequence the reply acknowledges the FIN itself; a repeated FIN is acknowledged again.", "quantifier": "all established states, all FIN packets", "why_tests_cant": "All sequence numbers and buffered data.", "anchors": ["src/socket.rs: UtpSocket::handle_packet"]}
{"id": "C44", "title": "A SYN on an established connection is refused", "statement": "A SYN received by a socket that is already connected is answered with a Reset and does not disturb the connection.", "quantifier": "all established states, all SYN packets", "why_tests_cant": "All sequence numbers.", "anchors": ["src/socket.rs: UtpSocket::handle_packet"]}
{"id": "C45", "title": "No remote input can crash the process", "statement": "No sequence of datagrams, timeouts, I/O errors and API calls makes the library panic.", "quantifier": "all executions, in builds with and without overflow checks", "why_tests_cant": "Needs every adversarial input; overflow panics need boundary values (65535).", "anchors": ["src/socket.rs: whole file", "src/packet.rs: PacketHeader::get_type, Packet::payload, Packet::set_sack"]}
{"id": "C46", "title": "Everything emitted is a valid packet of this connection", "statement": "Every datagram the socket emits is accepted by its own decoder and carries the connection identifier the peer expects.", "quantifier": "all executions", "why_tests_cant": "All histories.", "anchors": ["src/socket.rs: UtpSocket::prepare_reply, UtpSocket::send_packet, UtpSocket::build_selective_ack"]}
{"id": "C47", "title": "End-to-end prefix", "statement": "For a connection made by connect on one side and accepted on the other, where the connecting side only sends (send_to, flush, then close) and the other only reads, over a network that may lose, duplicate, reorder and delay but not forge datagrams, the bytes read are always a prefix of the bytes sent.", "quantifier": "all pairs of executions, all network schedules", "why_tests_cant": "All schedules of two parties.", "anchors": ["src/socket.rs: whole connection life cycle"]}
{"id": "C48", "title": "End-to-end acknowledgement honesty", "statement": "In the same setting, if flush returns Ok on the sending side then the receiving side has received every byte sent so far.", "quantifier": "all pairs of executions, all network schedules", "why_tests_cant": "All schedules of two parties.", "anchors": ["src/socket.rs: UtpSocket::flush, UtpSocket::handle_packet"]}
{"id": "C49", "title": "Stream read returns what the socket received", "statement": "A completed stream read returns the number of bytes received and leaves exactly those bytes at the start of the caller's buffer; every byte taken from the socket reaches a caller.", "quantifier": "all poll schedules and buffer sizes", "why_tests_cant": "Poll schedules and buffer changes between polls are unbounded.", "anchors": ["src/stream.rs: UtpStream::poll_read"]}
{"id": "C50", "title": "Stream write: Ok(n) means n bytes of this buffer were accepted", "statement": "When a stream write completes with n, the first n bytes of the buffer passed in that call were handed to the connection, exactly once.", "quantifier": "all poll schedules, clones, cancelled writes", "why_tests_cant": "Poll schedules are unbounded.", "anchors": ["src/stream.rs: UtpStream::poll_write"]}
{"id": "C51", "title": "Stream operations stay usable after an error", "statement": "After a read or write on the stream fails, further reads and writes return results (possibly errors) instead of panicking.", "quantifier": "all histories of stream calls", "why_tests_cant": "Needs an error at the right moment.", "anchors": ["src/stream.rs: UtpStream::poll_read, UtpStream::poll_write"]}
{"id": "C52", "title": "Closing through the stream's write interface works", "statement": "Polling the stream closed through the asynchronous write interface completes without panicking.", "quantifier": "all stream states", "why_tests_cant": "All states of the futures.", "anchors": ["src/stream.rs: UtpStream::poll_close"]}
{"id": "C53", "title": "Address queries on a stream never fail because of pending I/O", "statement": "local_addr and peer_addr on a stream return without panicking, whatever other operations are pending on it or its clones.", "quantifier": "all stream states", "why_tests_cant": "Depends on pending operations.", "anchors": ["src/stream.rs: UtpStream::local_addr, UtpStream::peer_addr"]}
{"id": "C54", "title": "Error kinds", "statement": "Each failure is reported with its documented std::io::ErrorKind: closed/unconnected NotConnected, reset ConnectionReset, retries exhausted TimedOut, bad address InvalidInput, bad handshake reply ConnectionRefused, malformed packet Other.", "quantifier": "all error values", "why_tests_cant": "Finite but must be total.", "anchors": ["src/error.rs: From<SocketError>, From<ParseError>"]}
{"id": "C55", "title": "A failed connect or accept leaves nothing behind", "statement": "When connect or accept does not return a socket, dropping the half-made socket sends nothing and does not wait.", "quantifier": "all outcomes of connect and accept, including cancellation and panics", "why_tests_cant": "Every way to fail, at every point, with what the peer does afterwards.", "anchors": ["src/socket.rs: UtpSocket::connect, UtpListener::accept, impl Drop for UtpSocket"]}
{"id": "C56", "title": "Closing or dropping a socket finishes the transfer", "statement": "Dropping a socket runs close. If close succeeds on an open connection, the peer acknowledged the last data sent before the FIN was sent; closing or dropping never loses data silently. A socket that is not connected is dropped without any effect.", "quantifier": "all histories, all networks", "why_tests_cant": "Needs every history of sends and losses before the close.", "anchors": ["src/socket.rs: UtpSocket::close, impl Drop for UtpSocket"]}
{"id": "C57", "title": "Every call returns in finite time", "statement": "Every operation returns after finitely many steps, provided that each wait with a timeout ends and sending does not block; every wait on a connected socket has a timeout.", "quantifier": "all states, all operations, all networks", "why_tests_cant": "Termination; no test can observe that a call never returns.", "anchors": ["src/socket.rs: UtpSocket::recv, UtpSocket::recv_from, UtpSocket::send_to, UtpSocket::flush, UtpSocket::close"]}
{"id": "C58", "title": "Overflow checks do not change behaviour", "statement": "Every call that does not panic in a build with overflow checks returns the same result, sends the same datagrams and leaves the same state in a build without them; connect is the same in both in every case.", "quantifier": "all states, all operations, all networks", "why_tests_cant": "Two builds compared on every input.", "anchors": ["src/socket.rs: UtpSocket::recv_from, UtpSocket::send_to, UtpSocket::flush, UtpSocket::close, UtpSocket::connect, UtpListener::accept"]}
{"id": "C59", "title": "The congestion window follows the queuing delay", "statement": "On an acknowledgement the window does not shrink when the queuing delay is at most 100 ms and does not grow when it is at least 100 ms (apart from its limits); a larger queuing delay never gives a larger window; it changes by at most one segment per window of acknowledged bytes. The arithmetic is IEEE double precision.", "quantifier": "all executions, all clocks, all 32-bit windows, delays and byte counts", "why_tests_cant": "Rounding errors of floating point arithmetic for all 2^96 arguments, along all executions.", "anchors": ["src/socket.rs: UtpSocket::update_congestion_window, UtpSocket::queuing_delay, UtpSocket::handle_state_packet"]}
{"id": "C60", "title": "The queuing delay lies between zero and the largest current delay", "statement": "The queuing delay (average of the current delays less the smallest base delay) is never negative and never larger than the largest delay in the current window.", "quantifier": "all executions, all clocks", "why_tests_cant": "The clock wraps every 71 minutes; needs every relation between the two windows of delays.", "anchors": ["src/socket.rs: UtpSocket::queuing_delay, UtpSocket::update_base_delay, UtpSocket::update_current_delay, UtpSocket::filtered_current_delay"]}
{"id": "C61", "title": "The round-trip estimate follows the measured delays", "statement": "The round-trip estimate changes only on an acknowledgement of an outstanding packet; it then moves by an eighth towards the delay of that packet less the queuing delay, so it never exceeds the largest delay measured.", "quantifier": "all executions, all clocks", "why_tests_cant": "Every sequence of delays; the failing ones drop sharply within a tenth of a round trip.", "anchors": ["src/socket.rs: UtpSocket::update_congestion_timeout, UtpSocket::handle_state_packet", "src/time.rs: From<Delay> for u32"]}
{"id": "C62", "title": "Current delays are kept for one round trip", "statement": "A new measurement removes exactly the samples older than one round-trip time from the window of current delays.", "quantifier": "all executions, all clocks", "why_tests_cant": "A mistake of units: only the length of the window shows it.", "anchors": ["src/socket.rs: UtpSocket::update_current_delay"]}
{"id": "C63", "title": "An acknowledgement is processed completely", "statement": "The first State packet that acknowledges an outstanding packet removes exactly that packet and those before it, takes their bytes off the window, and its delay enters the base delays, the current delays, the congestion window, the round-trip estimate, its variance and the timeout, by the given formulas; a repeated one is only counted; the third halves the window. Nothing else changes. A fresh socket has counted and measured nothing.", "quantifier": "all reachable states of open connections, all State packets without selective ack", "why_tests_cant": "Twelve fields change at once; each for every history of measurements.", "anchors": ["src/socket.rs: UtpSocket::handle_state_packet, UtpSocket::advance_send_window, UtpSocket::update_base_delay, UtpSocket::update_current_delay, UtpSocket::update_congestion_window, UtpSocket::update_congestion_timeout"]}
{"id": "C64", "title": "Errors have causes", "statement": "An operation fails with an error of the operating system only if its last UDP receive failed so (not with a timeout) or its last UDP send failed so; with ConnectionReset only if a Reset for this connection just arrived or had arrived before; with ConnectionTimedOut only if the allowed number of receives, all in this call, timed out in a row; with ConnectionClosed only when writing to a closed socket; with InvalidReply or Other only if a packet arrived that does not fit the state. A failed receive is reported, and leaves the socket unchanged.", "quantifier": "all states, all operations, all networks", "why_tests_cant": "Errors inside nested receives and retransmissions are partly swallowed and partly passed on; every combination would have to be provoked.", "anchors": ["src/socket.rs: UtpSocket::recv_from, UtpSocket::recv, UtpSocket::handle_packet, UtpSocket::handle_receive_timeout, UtpSocket::send_to, UtpSocket::send_packet, UtpSocket::flush, UtpSocket::close", "src/error.rs: SocketError"]}
{"id": "C65", "title": "Strangers get no more than they send", "statement": "Everything a socket sends to an address other than its peer's answers a valid packet that arrived from that address, each packet at most once, with a datagram that is not longer; to an address from which nothing arrives nothing is sent.", "quantifier": "all executions, all networks, all addresses other than the peer's at the beginning and the end", "why_tests_cant": "The absence of reflection and amplification must hold for every sequence of forged datagrams, in every state.", "anchors": ["src/socket.rs: UtpSocket::recv, UtpSocket::handle_packet, UtpSocket::prepare_reply, UtpSocket::build_selective_ack, UtpSocket::recv_from, UtpSocket::send_to, UtpSocket::flush, UtpSocket::close"]}
{"id": "C66", "title": "What the peer acknowledges is flushed", "statement": "If every datagram sent is accepted by the operating system, fewer receives than the retry limit time out in a row, and the peer acknowledges the last outstanding packet, then flush returns, successfully, with nothing outstanding and without waiting for anything that comes later; whatever else arrives before (malformed, repeated or foreign datagrams, data, duplicate or selective acknowledgements). If the peer then acknowledges the FIN, close returns successfully and the socket is closed.", "quantifier": "all reachable states of a connected socket, all networks with such an acknowledgement, all positions of it", "why_tests_cant": "Liveness: no finite number of runs shows that the call returns on every network; nested receives inside retransmissions make the path to the acknowledgement arbitrarily long.", "anchors": ["src/socket.rs: UtpSocket::flush, UtpSocket::close, UtpSocket::recv, UtpSocket::handle_packet, UtpSocket::handle_state_packet, UtpSocket::send_packet, UtpSocket::advance_send_window"]}
{"id": "C67", "title": "A lossless transfer completes", "statement": "Over a network that loses, reorders and repeats nothing, a program that writes any buffers in any batches, flushing after each, succeeds, and a program at the other end that reads until it has that many bytes gets exactly the bytes written. Every packet is sent once and acknowledged once. The connection is then ready for the next transfer, in either direction: conversations of any length, started by connect and accept, succeed.", "quantifier": "all clocks, all random numbers, all buffers, all batches, all read lengths, all conversations, debug and release builds", "why_tests_cant": "Liveness and safety of both ends together, for every schedule of windows and acknowledgements and transfers past the wrap of the 16-bit numbers.", "anchors": ["src/socket.rs: UtpSocket::send_to, UtpSocket::send, UtpSocket::send_packet, UtpSocket::flush, UtpSocket::recv_from, UtpSocket::recv, UtpSocket::handle_packet, UtpSocket::handle_state_packet, UtpSocket::connect, UtpListener::accept"]}
{"id": "C68", "title": "A lossless shutdown completes", "statement": "Over a network that loses nothing, closing a connection with nothing outstanding succeeds: close returns Ok on one side and recv_from returns 0 bytes on the other, each after one datagram; if both sides close at once both calls return Ok. Afterwards every operation on either socket returns at once without touching the network: reads give 0 bytes, sends fail with NotConnected, flush and close succeed. So the whole life of a connection, from connect and accept through any conversation to close, runs as intended.", "quantifier": "all clocks, all random numbers, all conversations before, debug and release builds", "why_tests_cant": "Liveness of both ends together, in every state a conversation can leave; simultaneous close needs a race.", "anchors": ["src/socket.rs: UtpSocket::close, UtpSocket::recv_from, UtpSocket::recv, UtpSocket::handle_packet, UtpSocket::prepare_reply"]}
{"id": "C69", "title": "Concurrent use of clones is as if one call came after the other", "statement": "Clones of a stream are polled by several threads, and their steps (each attempt to lock a slot, each release) interleave in any way, but no two polls of the same kind overlap. Then there is an order of the calls, one at a time, that respects which call ended before which began and in which every call has the result that was seen; at the end the stream is as after that order. Without the condition this fails: two overlapping reads can panic as no order of single reads does. A poll_close panics even then, unless another poll_close panicked before.", "quantifier": "all interleavings of any number of threads and calls, all networks, all buffers", "why_tests_cant": "Linearizability over all interleavings at the granularity of single lock attempts; tests see only the schedules the operating system happens to choose.", "anchors": ["src/stream.rs: UtpStream::poll_read, UtpStream::poll_write, UtpStream::poll_flush, UtpStream::poll_close, UtpStream::close, UtpStream::set_max_retransmission_retries"]}
{"id": "C70", "title": "A waiting read does not block writes", "statement": "While one clone of a stream waits for data to read, another clone can write: the write does what it does when no read waits. (False of the code: the read keeps the lock of the socket while it waits, so no write, flush or method makes any progress until the read is polled again; true when no operation is in progress.)", "quantifier": "all reachable streams, all sequences of calls while the read waits", "why_tests_cant": "Concerns every sequence of polls between two polls of the read; a test that hangs does not show that no schedule helps.", "anchors": ["src/stream.rs: UtpStream::poll_read, UtpStream::poll_write, UtpStream::poll_flush", "src/socket.rs: UtpSocket::recv_from"]}
{"id": "C71", "title": "Overlapping polls do not corrupt the socket", "statement": "Whatever threads do with clones of a stream, also when their polls overlap and some of them panic, the socket is in a state that some sequence of its operations leads to; its lock is held by at most one future, which is still in its slot, or by a method, and is never lost; the locks of the slots are held only by calls in progress, and when there are none the next call starts as the first one did.", "quantifier": "all interleavings of any number of threads and calls, with any panics among them, all networks, release builds", "why_tests_cant": "Every interleaving of lock attempts, including the ones that panic half-way.", "anchors": ["src/stream.rs: UtpStream::poll_read, UtpStream::poll_write, UtpStream::poll_flush, UtpStream::poll_close"]}
{"id": "C72", "title": "A listener answers each datagram once", "statement": "Any number of accept calls on one listener are in progress, each is polled at any time, gets as far as the outside allows, and may be dropped. Each result is exactly the result for the datagram that call took, as if it ran alone without interruption; each datagram taken is answered once, held by one call, or was taken by a call that was dropped (then it is lost: false of the code if a SYN must survive a dropped accept). The stream of incoming connections yields the results in order of arrival, one for each datagram, without end, and a poll is ready as soon as the datagram is there and the reply can be sent.", "quantifier": "all interleavings of any number of accept calls, all datagrams, all outcomes of binding and sending, all moments of dropping", "why_tests_cant": "Concerns all interleavings of polls and drops; a test exercises one accept at a time.", "anchors": ["src/socket.rs: UtpListener::accept, UtpListener::incoming, Incoming::poll_next"]}
{"id": "C73", "title": "One connect makes at most one connection at the listener", "statement": "Two sockets returned by accept with the same peer address and connection identifiers come from two calls of connect. (False of the code: connect repeats its SYN when the reply is late, and the listener makes a second socket for the repeated SYN; true is that they come from two SYN packets.)", "quantifier": "all arrivals at a listener, all interleavings of accept calls", "why_tests_cant": "Needs a reply that is late by the right amount; the number of sockets must be related to all datagrams that ever arrived.", "anchors": ["src/socket.rs: UtpListener::accept, UtpSocket::connect"]}
{"id": "C74", "title": "Dropping the last clone closes the connection", "statement": "When the last clone of a stream is dropped, the operation in progress, whichever it is, is cut off, and the socket is closed in the state that operation left, which is one that calls of socket operations lead to. The drop never panics, it ends once the network falls silent, and it sends a FIN only when everything sent has been acknowledged or a FIN was sent before.", "quantifier": "all reachable streams with any operation waiting, all networks, release builds", "why_tests_cant": "The drop can come at any point of any operation, and whether it ends depends on everything that arrives later.", "anchors": ["src/stream.rs: UtpStream, UtpStreamFutures", "src/socket.rs: impl Drop for UtpSocket, UtpSocket::close"]}
{"id": "C75", "title": "A task that waits is woken", "statement": "A task whose poll of a stream returned Pending is woken when what it waits for is there, and its next poll then does not return Pending. (False of the code when two tasks poll the same kind of operation on clones of one stream: only the task that polled last is woken, and the other one waits forever, whatever arrives; true when no task polls a slot another task waits for.)", "quantifier": "all interleavings of polls, wake-ups, timeouts and methods of any number of tasks, all networks", "why_tests_cant": "A lost wake-up shows only in certain interleavings of several tasks, and as a hang, which no test outcome distinguishes from waiting.", "anchors": ["src/stream.rs: UtpStream::poll_read, UtpStream::poll_write, UtpStream::poll_flush, UtpStream::poll_close"]}
{"id": "C76", "title": "Client and server of utpcat transfer any data", "statement": "The server binds a stream and reads until it gets no bytes; the client connects to it, writes any sequence of buffers, flushing now and then, and closes (examples/utpcat.rs, tests/stream.rs). If all sends succeed and every datagram sent by one side arrives at the other, once and in order, then connect, every write, every flush, close and every read succeed; the server has read exactly the bytes written; both connections are over, so that every further operation returns at once; and each side has sent one datagram per packet of data, plus one for the handshake and one for the end. At most 32768 packets (45 MB) are written between two flushes.", "quantifier": "all buffers (empty ones and none at all included), all places of the flushes, all buffer lengths of the reader (also depending on what was read), all clocks, all random numbers, both builds, all addresses", "why_tests_cant": "The tests transfer fixed patterns of a few lengths over the loopback interface with the clock and the random numbers of the day; they cannot cover all contents, all cuts into writes and reads, all identifiers and first numbers, or all clocks.", "anchors": ["tests/stream.rs:65-85", "examples/utpcat.rs:46-102", "src/socket.rs:250-306", "src/socket.rs:352-377", "src/socket.rs:312-345"]}
{"id": "C77", "title": "Data gets across a network that loses datagrams", "statement": "Let a sender send buffers, flushing after each, and let a reader read until it has all the bytes, over a network that may lose any of the datagrams in both directions and may repeat them, without changing their order, as long as no socket sees so many timeouts in a row that it gives up. Then both programs finish without an error and the reader has got exactly the bytes sent, in order, once.", "quantifier": "all contents and any number of buffers (the sequence numbers may wrap any number of times), all patterns of lost and repeated datagrams, all interleavings of the two sides, all buffer lengths of the reader, all clocks and measurements, all reachable round trip estimates and windows", "why_tests_cant": "A test over the loopback interface loses nothing; a test with a simulated network tries some loss patterns with some transfers of limited length. No test covers every pattern of loss together with every interleaving, or transfers of more than 65536 packets.", "anchors": ["src/socket.rs:379-456", "src/socket.rs:458-501", "src/socket.rs:601-640", "src/socket.rs:352-377", "src/socket.rs:791-810"]}
{"id": "C78", "title": "The echo server returns a message", "statement": "Let a client send one message of 1 to 1380 bytes over a fresh connection and then read until it gets no bytes, and let the server handle the connection as in examples/echo-server.rs: one recv_from into a buffer of 1500 bytes, send_to of the bytes received, and then the socket is dropped. If all sends succeed and every datagram sent by one side arrives at the other, once and in order, then the client reads exactly its message followed by the end of the stream, both programs end, the connection is closed on both sides, and no packet is sent twice. (False of the code when the random first number of the server is 0 or above 32768: send_to then does not transmit the echo, and the client's next timeout acknowledges it.)", "quantifier": "all messages of 1 to 1380 bytes, all buffer lengths of the client, all clocks, both builds, all states of an established idle connection", "why_tests_cant": "The example is run by hand; whether the echo arrives depends on the random first number of the server, which a run cannot choose, and on all clocks and buffer lengths.", "anchors": ["examples/echo-server.rs:7-18", "src/socket.rs:352-377", "src/socket.rs:597-622", "src/socket.rs:1169-1173"]}
{"id": "C79", "title": "A packet waits half a second for room in the window", "statement": "While there is no room in the window, send_to receives datagrams before it sends a packet only for half a second from when the packet's turn came (PRE_SEND_TIMEOUT); the receive that passes this time is the last one, and the packet is then sent, whatever the window.", "quantifier": "all sockets, packets, clocks and behaviours of the receives in between", "why_tests_cant": "Depends on when the clock is read relative to its wrap-around every 71 minutes.", "anchors": ["src/socket.rs: UtpSocket::send_packet"]}
{"id": "C80", "title": "Every packet advertises the receive window", "statement": "Every packet a socket of an open connection sends advertises the space the socket has for data (a fixed 1 MiB), so that the peer may use its congestion window.", "quantifier": "all reachable states and executions of a socket, all datagrams it sends; and all pairs of sockets one of which receives what the other sent", "why_tests_cant": "Tests over the loopback interface only see that data arrives; a closed window only slows a transfer down, and only when both sides send data.", "anchors": ["src/socket.rs:438-442", "src/socket.rs:608-617", "src/socket.rs:650-668", "src/socket.rs:791-806", "src/socket.rs:865-881"]}
{"id": "C81", "title": "Acknowledgements count in whatever packet they arrive", "statement": "The acknowledgement number in the header of every packet of an open connection is taken into account: packets that a Data or FIN packet acknowledges are no longer outstanding.", "quantifier": "all states of a socket but a fresh one, all datagrams, all environments", "why_tests_cant": "In tests every data packet is also answered by a State packet that carries the same acknowledgement, so nobody notices that the number in Data packets is ignored.", "anchors": ["src/socket.rs:857-957", "src/socket.rs:959-984", "src/socket.rs:1034-1128"]}
{"id": "C82", "title": "A socket holds no more received data than it advertises", "statement": "The received packets a socket holds for its reader never amount to more than the receive window it advertises (1 MiB): what is beyond the window is not stored.", "quantifier": "all reachable states of a socket, all datagrams its peer sends in any order and number, all environments", "why_tests_cant": "A test has to send more than a MiB past a missing packet; and tests look at the data, not at the memory.", "anchors": ["src/socket.rs:38", "src/socket.rs:380-386", "src/socket.rs:438-442", "src/socket.rs:1138-1163"]}
{"id": "C83", "title": "Only the peer's datagrams affect a connection", "statement": "Once a connection is established, datagrams from addresses other than the peer's do not affect it: neither its state nor the data its user reads, nor what it sends to the peer.", "quantifier": "all states of an established connection, all pairs of networks that deliver the same datagrams from different addresses, all operations and executions", "why_tests_cant": "Tests have no third party; and the claim compares two executions, which no single test run can.", "anchors": ["src/socket.rs:428-455", "src/socket.rs:857-957"]}
{"id": "C84", "title": "A wait for the peer is bounded", "statement": "A socket never waits longer than MAX_CONGESTION_TIMEOUT (60 s) for a datagram before it resends or asks for missing packets.", "quantifier": "all executions from any state, all networks, all builds", "why_tests_cant": "Each timeout has to be waited for: a test that shows a wait of more than a minute takes several minutes.", "anchors": ["src/socket.rs:393-416", "src/socket.rs:458-460", "src/socket.rs:732-747"]}
{"id": "C85", "title": "Every datagram carries the time at which it is sent", "statement": "Every datagram a socket sends, whether new, repeated, an answer or a request, is handed to the operating system right after a reading of the clock and carries that reading as its timestamp; so timestamps never go back when the clock does not, and no two are equal when it always advances.", "quantifier": "all executions of bound, connecting and accepted sockets, all networks, all clocks, all builds", "why_tests_cant": "The timestamp is set in eight places, some of which only run after losses; a test compares one datagram with a wall clock it does not control.", "anchors": ["src/socket.rs:269-271", "src/socket.rs:327", "src/socket.rs:484-507", "src/socket.rs:515-521", "src/socket.rs:681-686", "src/socket.rs:795"]}
{"id": "C86", "title": "Every datagram reports the delay of the latest packet of the peer", "statement": "The timestamp difference of every datagram is the delay of the packet it answers or, if it answers none, of the latest packet of the connection: the time of its arrival minus its timestamp.", "quantifier": "all executions of sockets made by connect or accept, all networks, all clocks, all builds", "why_tests_cant": "The value depends on the history of everything received, on two clocks, and on losses.", "anchors": ["src/socket.rs:515-528", "src/socket.rs:793-800", "src/socket.rs:324-329", "src/socket.rs:499-507", "src/socket.rs:681-683", "src/socket.rs:877-879", "src/util.rs:19-25"]}
{"id": "C87", "title": "The end of the stream is reported only after everything was read", "statement": "When recv_from returns no bytes, which means that the stream has ended, the reader has been given every byte that the sender's successful calls of send_to took, in order.", "quantifier": "all executions of a connecting sender and an accepted reader, all networks that lose, delay, reorder and (within the limit stated) repeat datagrams, all clocks, all builds", "why_tests_cant": "Whether the last packets are missing when the FIN arrives depends on the order in which datagrams, repetitions and the FIN arrive; a test sees one order.", "anchors": ["src/socket.rs:352-377", "src/socket.rs:379-456", "src/socket.rs:531-598", "src/socket.rs:857-984", "src/socket.rs:1138-1166", "src/socket.rs:312-350"]}
{"id": "C88", "title": "What the accepting side sends is read in order by the connecting side", "statement": "A client connects and reads, a server is accepted, sends and closes; the network between them loses, repeats and reorders datagrams but does not forge them. The bytes that the client reads are a prefix of the bytes that the server sent, and if the server's flush returns Ok every piece has arrived at the client.", "quantifier": "all executions of a connecting reader and an accepted sender, all networks that lose, delay, repeat and reorder datagrams, all clocks, all builds", "why_tests_cant": "The server's first data packet shares its number with the answer to the SYN; whether that does harm depends on the order in which the first packets arrive, which a test on one machine does not vary.", "anchors": ["src/socket.rs:250-310", "src/socket.rs:352-377", "src/socket.rs:379-456", "src/socket.rs:531-598", "src/socket.rs:857-984", "src/socket.rs:1229-1276"]}
{"id": "C89", "title": "The data carried is copied and never looked at", "statement": "Take two executions that differ only in the payload bytes: the network delivers datagrams with the same headers, extensions and lengths, and the user writes buffers of the same lengths. Then every operation ends the same way, with the same state, the same clock readings and waits, and the same datagrams but for their payloads. Any relation that holds byte by byte between the payloads received holds between the bytes read, and any relation between the bytes written holds between the payloads sent. So what is sent does not depend on the contents received, what is read does not depend on the contents written, and every byte read was in the payload of a datagram delivered.", "quantifier": "all pairs of executions that differ only in payloads, all relations between bytes, all operations, all networks, all clocks, all builds", "why_tests_cant": "The claim compares two executions, and it is about every possible content; a test sees one content at a time.", "anchors": ["src/socket.rs:250-456", "src/socket.rs:548-690", "src/socket.rs:765-984", "src/socket.rs:1034-1163", "src/packet.rs:231-387", "src/packet.rs:431-494"]}
{"id": "C90", "title": "A peer cannot make receives pile up inside each other", "statement": "Handling a State packet may resend packets, resending waits for room in the window by receiving, and so recv calls itself. However many datagrams the peer sends, the number of receives in progress inside each other stays below a fixed bound.", "quantifier": "all reachable sockets, all networks, all depths", "why_tests_cant": "Tests do not send a flood of selective acks while the window is full; the depth reached depends on how many arrive before the first wait ends.", "anchors": ["src/socket.rs:379-456", "src/socket.rs:648-690", "src/socket.rs:808-828", "src/socket.rs:1033-1128"]}
{"id": "C91", "title": "The round trip is measured only on packets sent once", "statement": "Whenever a new delay sample is recorded, the packet it was measured on has been sent exactly once, and the sample is the time since that one sending (Karn's rule).", "quantifier": "all reachable sockets, all operations, all networks and clocks", "why_tests_cant": "Needs a retransmission and an ack of either copy, with the clock controlled; tests only look at the data that arrives.", "anchors": ["src/socket.rs:458-511", "src/socket.rs:648-690", "src/socket.rs:808-828", "src/socket.rs:1033-1075"]}
{"id": "C92", "title": "A data packet is transmitted again only on a sign of loss", "statement": "On a connected socket, as long as no receive times out, no State packet of the connection carries a selective ack and no three of them acknowledge the same number, every Data datagram carries the next number, so no packet is sent twice; receiving, flushing and closing then send no Data at all.", "quantifier": "all networks, clocks, operations and results of sends, from any connected socket that has counted no duplicate ack", "why_tests_cant": "A needless retransmission changes nothing the application sees; finding one needs every datagram of long executions to be compared with everything that arrived before.", "anchors": ["src/socket.rs:458-511", "src/socket.rs:601-690", "src/socket.rs:1033-1145"]}
{"id": "C93", "title": "The acknowledgement numbers of a socket never go backwards", "statement": "The acknowledgement numbers of the State packets a socket sends, in the order in which they are sent, never go backwards.", "quantifier": "all networks, clocks, operations and results of sends, over 32767 receives from the beginning of a connection on", "why_tests_cant": "The number is set in three places and depends on the sizes of the buffers the application reads into; a step back needs a packet that is read in parts while another one arrives inside a write.", "anchors": ["src/socket.rs:515-599", "src/socket.rs:857-864", "src/socket.rs:627-635"]}
{"id": "C94", "title": "An answer acknowledges everything that has arrived without a gap", "statement": "Every State packet a socket sends acknowledges the highest number up to which all packets had arrived when it was sent.", "quantifier": "all networks, clocks, operations and results of sends", "why_tests_cant": "An acknowledgement that is too low only costs the sender time; tests on a loopback network, where packets arrive in order, never see one.", "anchors": ["src/socket.rs:515-546", "src/socket.rs:857-864", "src/socket.rs:913-984"]}
{"id": "C95", "title": "A data packet is taken whole or not at all", "statement": "The payload of a data packet is given to the reader completely, or the packet is not acknowledged; no part of an acknowledged packet is thrown away.", "quantifier": "all data packets of any size with any extensions, all sequences of such packets in order, all read sizes, both builds", "why_tests_cant": "The library itself never sends packets above 1400 bytes, so tests between two of its own sockets cannot send a packet that does not fit its receive buffer.", "anchors": ["src/socket.rs:25", "src/socket.rs:379-456", "src/socket.rs:548-588"]}
{"id": "C96", "title": "Nobody answers for ever", "statement": "A Reset is never answered, so that two sockets never keep answering each other.", "quantifier": "all pairs of sockets of different connections, all packets of another connection, all run lengths, both builds", "why_tests_cant": "A test stops after some packets; that an exchange never ends can only be seen by an argument for all lengths, and it needs two sockets of different connections that reach each other.", "anchors": ["src/socket.rs:379-456", "src/socket.rs:857-872", "src/socket.rs:947-950"]}
{"id": "C97", "title": "What has arrived can be read at once", "statement": "When all data packets up to some number have arrived, in whatever order, recv_from returns their bytes without waiting for the network.", "quantifier": "all orders of arrival, all losses of later packets, all sequences of reads with any buffer sizes, all numbers of packets, both builds", "why_tests_cant": "There are too many orders of arrival and interleavings with reads of different sizes; tests try a few.", "anchors": ["src/socket.rs:357-376", "src/socket.rs:548-588", "src/socket.rs:1138-1158"]}
{"id": "C98", "title": "A peer that is gone is noticed in the documented time", "statement": "If nothing arrives any more, recv_from with nothing to read, flush with something outstanding, and close fail with TimedOut after about 16 seconds of waiting, with the default limit of 5 retries.", "quantifier": "all reachable states of a socket that is not closed, all timeouts and retry limits, the three waiting operations, both builds", "why_tests_cant": "Tests with real timeouts are slow and cover only the first timeout value; the documented time depends on the state in which the peer vanishes.", "anchors": ["src/socket.rs:32", "src/socket.rs:75-79", "src/socket.rs:312-345", "src/socket.rs:379-430", "src/socket.rs:627-635"]}
{"id": "C99", "title": "recv_from reports the sender of the bytes", "statement": "recv_from returns, with the bytes read, the address of the peer that sent them.", "quantifier": "all reachable states of an established socket, all operations before, all datagrams from all addresses, both builds", "why_tests_cant": "Tests use one peer; a wrong address needs a second sender and a particular order of arrival.", "anchors": ["src/socket.rs:346-377", "src/socket.rs:432-456"]}
{"id": "C100", "title": "Every datagram fits into one network packet", "statement": "No datagram a socket sends exceeds the Ethernet maximum of 1500 bytes (the source says: let us assume no packet will ever exceed it), so that it is not fragmented and a short packet is not answered by a much longer one.", "quantifier": "all executions of all sockets, all datagrams from all addresses, both builds", "why_tests_cant": "Tests send data near the expected numbers; the answer grows with the distance of the number of a packet held.", "anchors": ["src/socket.rs:23-35", "src/socket.rs:601-624", "src/socket.rs:765-785", "src/packet.rs:321-365"]}
{"id": "C101", "title": "An acknowledgement of nothing changes nothing", "statement": "A State packet that acknowledges a number no outstanding packet has (never used, or acknowledged before) does not change what the socket transmits later: in particular the next send_to still transmits its data.", "quantifier": "all sockets in the connected state, all packets of the connection, all later send_to, both builds", "why_tests_cant": "Tests acknowledge what was sent; the numbers of forged or damaged acknowledgements are 65536 times the states.", "anchors": ["src/socket.rs:670-680", "src/socket.rs:830-865", "src/socket.rs:1030-1075"]}
{"id": "C102", "title": "One loss halves the congestion window once", "statement": "However many acknowledgements tell the sender of the loss of one packet, its congestion window is halved once for it, not once for each of them (RFC 6817 and 5681: at most once per round trip).", "quantifier": "all connected sockets, all acknowledgements that acknowledge nothing new, with and without selective ones, any number of them, both builds", "why_tests_cant": "Tests look at retransmissions, not at the window; and the initial window is the minimum, where halving has no effect.", "anchors": ["src/socket.rs:1035-1041", "src/socket.rs:1075-1105", "src/socket.rs:1119-1124"]}
{"id": "C103", "title": "Empty buffers are harmless", "statement": "send_to with an empty buffer returns 0 and recv_from into an empty buffer returns 0, both at once, without waiting for the peer and without changing the connection, as the Read and Write conventions of Rust demand.", "quantifier": "all sockets in all states, all networks, both builds", "why_tests_cant": "Tests use buffers that have a size.", "anchors": ["src/socket.rs:352-377", "src/socket.rs:548-598", "src/socket.rs:601-624"]}
{"id": "C104", "title": "An old data packet blocks the stream", "statement": "When a data packet arrives whose number is below the acknowledged one and which is not the packet read last (a late duplicate), it is acknowledged and put at the front of the reorder buffer; from then on, whatever the application calls and whatever the network does, recv_from never returns another byte until a packet numbered 65535 arrives, although later packets are received and acknowledged.", "quantifier": "all reachable states, all later executions with any calls and any network, any buffer length; the first part for release builds, the second for both", "why_tests_cant": "That nothing is ever read again is a statement about every continuation; a test sees one of them for a limited time.", "anchors": ["src/socket.rs:379-456", "src/socket.rs:548-588", "src/socket.rs:1138-1163"]}
{"id": "C105", "title": "Messages that cross are lost", "statement": "When both ends of an open connection send a message of one packet at the same time and flush, over a network that loses nothing, both flushes succeed, and each end has received and acknowledged the message of the other; but neither message can be read any more: flush receives into a scratch buffer, and what arrives there is dropped. The loss is not noticed: what is sent next is delivered as if the lost messages had never been sent.", "quantifier": "all connections with nothing outstanding, all messages of up to 1380 bytes, all environments in which all sends succeed and everything arrives, both build modes; the second part for all further transfers", "why_tests_cant": "Tests let one side send at a time; the loss needs both ends to be in flush, and no call returns an error.", "anchors": ["src/socket.rs:598-635", "src/socket.rs:379-456", "src/socket.rs:548-588"]}
{"id": "C106", "title": "Logging never panics and shows the header", "statement": "With logging switched on, every log message can be made: formatting a packet reads its type with an unwrap, but every datagram that is accepted, every packet a socket holds (sent, waiting to be sent, received out of order) and every packet it has sent has one of the five types, and is shown with the type, version, extension code and numbers its bytes stand for. The elapsed time shown next to the window cannot overflow, and the messages of different errors differ.", "quantifier": "all datagrams, all reachable sockets and everything they send, all clock readings, all errors", "why_tests_cant": "Tests run with logging off, so the arguments of the log messages are never evaluated; a packet of an unexpected type would crash only the user who turns logging on.", "anchors": ["src/packet.rs:396-410", "src/packet.rs:145-147", "src/socket.rs:471-477", "src/socket.rs:658-668", "src/error.rs:31-64"]}
{"id": "C107", "title": "A message that crosses a close is acknowledged and lost", "statement": "On a network that loses nothing, one side calls close while the other sends a message and flushes, both before anything arrives. Then close returns Ok, after sending two FINs; the second acknowledges the message. The message was thrown away and nothing can be read afterwards. The sender answers both FINs, ignores that the message is acknowledged, retransmits until the retries are used up and fails with ConnectionTimedOut.", "quantifier": "all pairs of connected endpoints with nothing outstanding, all messages of one packet, all clocks, all window sizes and congestion behaviour", "why_tests_cant": "The comment of close says that both peers can receive all packets still in flight. A test would have to make both calls at the same moment and then wait for the half minute of retransmissions; the tests of the crate close only after the last message was read.", "anchors": ["src/socket.rs:308-345", "src/socket.rs:907-938", "src/socket.rs:939-953", "src/socket.rs:956-985", "src/socket.rs:627-635"]}
{"id": "C108", "title": "Two streams exchange every byte over a lossless network", "statement": "Over a network that loses nothing, a task that writes buffers to a UtpStream and flushes it and a task that reads from the UtpStream at the other end both succeed, however often and whenever their futures are polled: the writes report their full length, the flushes return Ok, the reader gets exactly the bytes written, in order, and both streams are idle and usable afterwards. A close of one stream then returns Ok and the next read of the other returns 0 bytes.", "quantifier": "all pairs of connected streams with nothing outstanding, all buffers, batches and read sizes, all schedules of polls, all clocks", "why_tests_cant": "Which polls return Pending depends on the executor and the arrival times; a test sees one schedule. That a pending write or read keeps its buffer and the lock across any number of polls, and runs its socket operation exactly once, is a statement about all schedules.", "anchors": ["src/stream.rs:107-130", "src/stream.rs:134-156", "src/stream.rs:158-176", "src/stream.rs:86-88", "src/socket.rs:352-407"]}
{"id": "C109", "title": "A close survives lost datagrams", "statement": "When one side of a connection with nothing outstanding closes it and the other side reads, and datagrams are lost meanwhile, but fewer in a row than close makes attempts, then close returns Ok, recv_from on the other side returns 0 bytes, and the connection is over on both sides.", "quantifier": "all connected pairs of sockets with nothing outstanding, all limits of retries, all numbers of lost FINs, all clocks", "why_tests_cant": "A test on a loopback interface loses nothing. Which of the FINs arrives, and that a lost answer can never be made good because a closed socket does not read any more, concern all ways the network can lose datagrams and all numbers of retries.", "anchors": ["src/socket.rs:375-424", "src/socket.rs:458-513", "src/socket.rs:312-348", "src/socket.rs:352-373", "src/socket.rs:920-944"]}
{"id": "C110", "title": "What is read does not depend on the clock", "statement": "Given the same datagrams, the same random numbers and the same results of sending, what recv_from, flush and close return, how long they wait and which datagrams they send apart from the two timestamp fields does not depend on what the system clock shows, even if it jumps or runs backwards.", "quantifier": "all sockets with nothing outstanding, all lists of operations other than send_to, all arriving datagrams, all pairs of clocks and of floating point results, both build modes", "why_tests_cant": "A test cannot set the system clock, let alone compare one execution under two clocks. The claim relates two executions and quantifies over all clocks, including ones that jump or run backwards.", "anchors": ["src/time.rs:7-14", "src/socket.rs:375-456", "src/socket.rs:654-664", "src/socket.rs:854-1010", "src/socket.rs:312-348"]}
{"id": "C111", "title": "The value of the connection identifiers does not matter", "statement": "Renaming all connection identifiers of an execution, in the socket and in every datagram, different ones to different ones, changes nothing else: every operation returns the same result, and the datagrams sent and the waits are the same but for the identifiers. So it is irrelevant which random number connect draws and which identifier a connecting peer chooses, and no random number drawn later plays a role.", "quantifier": "all injective renamings, all sockets that left the state New, all lists of operations, all arriving datagrams and send results, both build modes; for connect all pairs of drawn numbers, for accept all identifiers below 65535", "why_tests_cant": "The identifiers are drawn at random and cannot be fixed in a test. The claim compares two executions for every renaming of the 65536 identifiers and every sequence of datagrams.", "anchors": ["src/util.rs:32-40", "src/socket.rs:185-216", "src/socket.rs:250-306", "src/socket.rs:857-957", "src/socket.rs:601-624", "src/packet.rs:309-314"]}
{"id": "C112", "title": "Where our sequence numbers begin does not matter", "statement": "Adding the same number, modulo 65536, to all our sequence numbers, those in the socket and in what we send as well as the acknowledgement numbers that come back, changes nothing else: every operation returns the same result, and the datagrams sent and the waits are the same but for that number. So nothing special happens when the numbers wrap around, and the initial number drawn by accept is irrelevant.", "quantifier": "all numbers added, all reachable sockets that left the state New, all lists of operations, all arriving datagrams and send results", "why_tests_cant": "The claim compares two executions for each of 65536 shifts and every sequence of datagrams. To reach the wrap-around a test must send up to 65536 packets, and the behaviour there depends on losses and on the build.", "anchors": ["src/socket.rs:484-537", "src/socket.rs:1040-1148", "src/socket.rs:601-624", "src/socket.rs:286-306", "src/socket.rs:857-957"]}
{"id": "C113", "title": "Where the sequence numbers of the peer begin does not matter", "statement": "Adding the same number, modulo 65536, to all sequence numbers of the peer, those in the socket and in what arrives as well as the acknowledgement numbers that we send, changes nothing else: every operation returns the same result, and the datagrams sent and the waits are the same but for that number. So it is irrelevant which number the peer chooses for its SYN or for the reply to ours, and when its numbers wrap around.", "quantifier": "all numbers added, all reachable sockets that left the state New, all accepted SYN packets, all lists of operations, all arriving datagrams and send results, both build modes", "why_tests_cant": "The claim compares two executions for each of 65536 shifts and every sequence of datagrams. The sequence number of a real peer is not under the control of a test, and the wrap-around is reached after up to 65536 packets only.", "anchors": ["src/socket.rs:531-588", "src/socket.rs:601-624", "src/socket.rs:742-789", "src/socket.rs:857-984", "src/socket.rs:1138-1163"]}
{"id": "C114", "title": "The window and the times the peer reports do not affect reading", "statement": "While no data that were sent are outstanding, the results of recv_from, flush and close, the waits, and the datagrams sent except for their two timestamp fields do not depend on the timestamp, the timestamp difference and the window in the datagrams of the peer (bytes 4 to 15 of the header), nor on our clock. So a peer that lies about them, or that advertises a window of zero, can neither delay nor change what is read.", "quantifier": "all pairs of executions whose datagrams agree but for the bytes 4 to 15, all clocks, all sockets with an empty send window, all lists of operations other than send_to, both build modes", "why_tests_cant": "The three fields take 2^96 values in each datagram, and the claim compares two executions. A test peer fills them in sensibly.", "anchors": ["src/socket.rs:379-456", "src/socket.rs:515-588", "src/socket.rs:765-806", "src/socket.rs:857-984", "src/packet.rs:383-387"]}
{"id": "C115", "title": "The times in the datagrams of the peer are only echoed", "statement": "The timestamp and the timestamp difference in the datagrams of the peer (bytes 4 to 11 of the header) influence nothing but the timestamp difference (bytes 8 to 11) of the datagrams that are sent. All operations including send_to return the same, the waits, retransmissions, congestion window, base delays, round trip time and timeout are the same, and the same datagrams are sent at the same moments. The same holds while a connection is made by connect or accept. So a peer with a wrong clock can neither slow down nor speed up the sender.", "quantifier": "all pairs of executions whose datagrams agree but for the bytes 4 to 11, all states, all lists of operations, connect and accept, both build modes", "why_tests_cant": "The two fields take 2^64 values in each datagram and the claim compares two executions in full, including the congestion window. A test peer fills them in sensibly.", "anchors": ["src/socket.rs:515-541", "src/socket.rs:673-684", "src/socket.rs:765-806", "src/socket.rs:876-881", "src/socket.rs:1056-1062", "src/packet.rs:283-305"]}
{"id": "C116", "title": "A window of the peer below 2800 bytes has no effect", "statement": "Every window of at most 2800 bytes (two full packets) that the peer reports, including zero, is treated in the same way: executions whose datagrams agree but for such windows (and for the times of the peer) have the same results, the same waits, the same congestion state, and send the same datagrams at the same moments but for the timestamp difference. So a peer that reports a full buffer with a window of zero cannot stop the sender.", "quantifier": "all pairs of executions whose datagrams agree but for the times and for windows that are equal or both at most 2800, all states, all lists of operations, connect and accept, both build modes", "why_tests_cant": "The claim compares two executions in full, for any windows in any of the datagrams. A test peer is a socket of this crate, which always reports 1048576 bytes.", "anchors": ["src/socket.rs:648-690", "src/socket.rs:876-881", "src/packet.rs:307-315"]}
{"id": "C117", "title": "Unknown extensions are ignored", "statement": "An extension that is not a selective acknowledgement, and any extension in a datagram that is not an acknowledgement (State), has no effect: executions whose datagrams agree but for such extensions, which may be changed, added or left out, have the same results, the same waits, and send exactly the same datagrams. The same holds while a connection is made by connect or accept.", "quantifier": "all pairs of executions whose datagrams (of at most 1500 bytes) agree but for such extensions, all states, all lists of operations, connect and accept, both build modes", "why_tests_cant": "There are 254 unknown codes, any data in them, chains of any length, and the claim compares two executions in full. The tests only decode a few packets with unknown extensions.", "anchors": ["src/socket.rs:857-984", "src/socket.rs:1074-1117", "src/packet.rs:265-285", "src/packet.rs:419-452"]}
{"id": "C118", "title": "Which parts of a datagram are looked at", "statement": "Of an accepted datagram only the type, the connection identifier, the timestamp, the window and the sequence number are looked at; of State packets also the acknowledgement number and the selective acknowledgements; of Data packets also the payload. Executions whose datagrams agree in these parts have the same results, the same waits, and send the same datagrams byte for byte. So the timestamp difference is never used, payloads of packets other than Data are dropped, and acknowledgement numbers and selective acknowledgements in packets other than State are without effect. The same holds while a connection is made by connect or accept. Each of these parts matters in some execution.", "quantifier": "all pairs of executions whose datagrams (of at most 1500 bytes) agree in these parts, all states, all lists of operations, connect and accept, both build modes", "why_tests_cant": "It is a statement about all values of the other parts in all datagrams of an execution, and it compares two executions in full.", "anchors": ["src/socket.rs:379-456", "src/socket.rs:515-588", "src/socket.rs:857-984", "src/socket.rs:1029-1135", "src/packet.rs:265-315"]}
{"id": "C119", "title": "The limit of retries matters only if the peer is silent", "statement": "If never more than g waits for a datagram in a row are in vain, then all values of max_retransmission_retries above g are equivalent: whatever they are, and whatever they are set to between the operations, all operations return the same, the same datagrams are sent, and the same waits are made.", "quantifier": "all g, all networks in which at most g waits in a row time out, all pairs of limits above g, all states, all lists of operations, both build modes", "why_tests_cant": "It compares executions for all pairs of 32-bit limits and all networks with bounded silence; in tests the limit is only seen when it is reached.", "anchors": ["src/socket.rs:174-179", "src/socket.rs:383-424", "src/socket.rs:458-513"]}
{"id": "C120", "title": "A write that needs no waiting may be cut in two at a packet boundary", "statement": "If a write of a whole number of full packets (a multiple of 1380 bytes) succeeds without any waiting and a second write follows at once, then one write of all the bytes does exactly the same: it sends the same datagrams in the same order, reads the clock as often, leaves the same state, and returns the result of the second write, with the bytes of the first added if it succeeds.", "quantifier": "all lengths that are multiples of 1380, all second writes and all their results (success, errors, panics), all states, all networks, both build modes", "why_tests_cant": "It compares two executions for all states and all second writes, including those that fail or wait; a test compares two executions at a time, and the code has no such test.", "anchors": ["src/socket.rs:601-624", "src/socket.rs:637-688"]}
{"id": "C121", "title": "Neither the own address nor the time of the last acknowledgement is ever looked at", "statement": "Two sockets that differ only in the address they are bound to and in last_acked_timestamp behave the same: connect and accept and every list of operations give the same results, send the same datagrams and make the same waits, and the two differ only in these fields afterwards. The field last_acked_timestamp is thus dead: no timeout is derived from it.", "quantifier": "all pairs of own addresses and times, all states, all lists of operations, all networks and clocks, both build modes", "why_tests_cant": "It says that a field has no influence on any execution; a test sees single executions with single values of the field.", "anchors": ["src/socket.rs:139", "src/socket.rs:900-903", "src/socket.rs:1030-1040", "src/socket.rs:250-306", "src/socket.rs:1229-1261"]}
{"id": "C122", "title": "Reading a packet in pieces is reading it at once", "statement": "If a read with a buffer of k bytes returns bytes and a part of the packet remains, then a further read with a buffer of m bytes returns at once with at least one byte, without sending or waiting; and a single read with a buffer of k + m bytes would have returned the bytes of both reads and left the socket in the same state, having received and sent the same.", "quantifier": "all buffer sizes k, m > 0, all states and networks (the first read may have waited for the packet, answered others and received recursively), both build modes", "why_tests_cant": "It compares two executions for all pairs of buffer sizes and all states; tests read with a few buffer sizes.", "anchors": ["src/socket.rs:352-377", "src/socket.rs:548-588"]}
