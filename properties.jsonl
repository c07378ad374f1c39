{"id": "C01", "title": "Socket blocks never alias", "statement": "The block-select value of the common registers (0) and the values returned by Sn::block, Sn::tx_block and Sn::rx_block for the eight sockets are 25 pairwise different values below 32, Sn::bitmask sets exactly the socket's own bit, and Sn::try_from accepts exactly 0..=7 and inverts u8::from.", "quantifier": "all pairs of sockets and block kinds; all integers given to try_from", "why_tests_cant": "a test checks some pairs; aliasing of one pair silently corrupts another socket", "anchors": ["ll/src/lib.rs: Sn::block, Sn::tx_block, Sn::rx_block, Sn::bitmask, sn_conversion_for!, COMMON_BLOCK_OFFSET"]}
{"id": "C02", "title": "SPI frames carry exactly the requested access", "statement": "For every address, block (<32), access direction and length mode, the three header bytes decode (by the datasheet layout: 16-bit address, 5-bit block, R/W bit, 2-bit mode) to exactly that address, block, direction and mode; hence two different accesses never produce the same header.", "quantifier": "all 2^16 addresses, 32 blocks, 2 directions, 4 length modes", "why_tests_cant": "the domain is 2^24 headers; tests sample a few", "anchors": ["ll/src/spi.rs: vdm_header, fdm_header_1b, fdm_header_2b, fdm_header_4b, AccessMode"]}
{"id": "C03", "title": "Fixed-length and variable-length SPI transfers are equivalent", "statement": "For every start address, block and data length, the sequence of 4/2/1-byte frames issued by the fixed-data-length implementation reads the same bytes, or leaves the chip memory in the same state, as the single frame of the variable-data-length implementation, including when the 16-bit address wraps; every frame it issues has the length its header announces.", "quantifier": "all start addresses, blocks, data lengths and memory contents", "why_tests_cant": "length is unbounded and the chunking has edge cases at every residue mod 4 and at the address wrap", "anchors": ["ll/src/eh1/fdm.rs: Registers::read, Registers::write", "ll/src/eh1/vdm.rs: Registers::read, Registers::write"]}
{"id": "C04", "title": "Register setters and getters are inverse and do not interfere", "statement": "On a register file, every set_x followed by x returns the value written, in big-endian byte order at the documented address, and leaves every other byte of every block unchanged; reading never changes the register file.", "quantifier": "all registers, all values, all sockets, all prior memory contents", "why_tests_cant": "needs all register pairs times all values", "anchors": ["ll/src/lib.rs: trait Registers", "ll/src/addr.rs: Reg, SnReg"]}
{"id": "C05", "title": "Combined register accesses agree with the separate ones", "statement": "sn_tx_ptrs, sn_rx_ptrs and sn_dest return exactly what sn_tx_fsr/sn_tx_rd-skipping/sn_tx_wr, sn_rx_rsr/sn_rx_rd and sn_dipr/sn_dport return on the same register contents, and set_sn_dest leaves the register file as set_sn_dipr followed by set_sn_dport does.", "quantifier": "all sockets and register contents", "why_tests_cant": "a wrong slice index only shows for particular register values", "anchors": ["ll/src/lib.rs: sn_tx_ptrs, sn_rx_ptrs, sn_dest, set_sn_dest"]}
{"id": "C06", "title": "Register and command codes convert both ways", "statement": "For SnReg, SocketStatus, SocketCommand, Protocol, OperationMode, BufferSize: converting a value to its code and back gives the value, conversion succeeds on exactly the documented codes, and a rejected code is returned unchanged in the error. The same is claimed for Reg.", "quantifier": "all values of each enumeration and all integer codes", "why_tests_cant": "a missing table row is invisible unless that row is tested", "anchors": ["ll/src/addr.rs: Reg, SnReg", "ll/src/specifiers.rs: SocketStatus, SocketCommand, Protocol, OperationMode, BufferSize"]}
{"id": "C07", "title": "Bit-field setters change only their own field", "statement": "For Mode, Interrupt, PhyCfg, SocketMode, SocketInterrupt and SocketInterruptMask: after a setter its getter reports the new setting, every other getter reports what it did before, and From<u8>/u8::from are inverse.", "quantifier": "all 256 register values and all fields and settings", "why_tests_cant": "all field pairs times all register values", "anchors": ["ll/src/registers.rs"]}
{"id": "C08", "title": "Buffer sizes are consistent", "statement": "BufferSize::size_in_bytes is 1024 times the register code (16 KiB at most), and equals usize::from; MAX sizes fit the 16-bit pointers.", "quantifier": "all buffer sizes", "why_tests_cant": "table consistency must hold for every row", "anchors": ["ll/src/specifiers.rs: BufferSize"]}
{"id": "C09", "title": "Seeking never leaves the stream", "statement": "A seek from start, end or current position either fails with UnexpectedEof and leaves the position unchanged, or moves to the mathematically requested offset, which lies between 0 and the stream length; it fails exactly when the requested offset lies outside that range. This holds for every placement of the buffer pointers including wrap-around of the 16-bit pointers.", "quantifier": "all head/tail/current pointers and all offsets of every kind", "why_tests_cant": "wrap-around cases of three 16-bit pointers and a signed offset cannot be enumerated", "anchors": ["hl/src/io.rs: SeekFrom::new_ptr", "hl/src/tcp.rs: impl Seek for TcpReader, TcpWriter", "hl/src/udp.rs: impl Seek for UdpReader, UdpWriter"]}
{"id": "C10", "title": "Readers behave as a cursor over the received bytes", "statement": "Any sequence of read, read_exact, seek and rewind calls on a TCP or UDP reader returns the same bytes, counts, errors and positions as the same sequence on an in-memory cursor over the bytes that were in the socket receive buffer when the reader was created, for every position of the ring pointers.", "quantifier": "all operation sequences, buffer contents, pointer positions and buffer sizes", "why_tests_cant": "operation sequences are unbounded and ring wrap-around depends on history", "anchors": ["hl/src/tcp.rs: TcpReader", "hl/src/udp.rs: UdpReader", "hl/src/io.rs: Read, Seek"]}
{"id": "C11", "title": "Writers place exactly the written bytes in the transmit stream", "statement": "Any sequence of write, write_all, seek and rewind on a TCP or UDP writer followed by send hands to the network exactly the contents an in-memory cursor would hold from the start to the current position, provided the positions below it were written; nothing outside the free space of this socket's buffer is modified.", "quantifier": "all operation sequences, data, pointer positions and buffer sizes", "why_tests_cant": "unbounded sequences with ring wrap-around", "anchors": ["hl/src/tcp.rs: TcpWriter", "hl/src/udp.rs: UdpWriter"]}
{"id": "C12", "title": "TCP receive stream is delivered in order, exactly once", "statement": "For every history of network arrivals and tcp_read calls, the concatenation of the bytes returned by tcp_read calls equals the bytes received from the network with only the still-buffered suffix missing: none lost, duplicated or reordered.", "quantifier": "all histories (arrivals and reads of any size, any number of 64 KiB pointer wraps)", "why_tests_cant": "histories are unbounded; pointer wrap happens only after 64 KiB", "anchors": ["hl/src/tcp.rs: tcp_read, tcp_reader, TcpReader::done"]}
{"id": "C13", "title": "TCP transmit stream is sent in order, exactly once", "statement": "For every history of tcp_write calls, the bytes handed to the network are the concatenation of the accepted prefixes (the first n bytes of the argument, n the returned count), n is the minimum of the argument length and the free space, and bytes not accepted are not sent.", "quantifier": "all histories of tcp_write with any data and any amount of free space", "why_tests_cant": "unbounded histories and wrap-around", "anchors": ["hl/src/tcp.rs: tcp_write, tcp_writer, TcpWriter::send"]}
{"id": "C14", "title": "read_exact and write_all are all-or-nothing", "statement": "read_exact fails with UnexpectedEof exactly when fewer bytes remain than requested and write_all fails with OutOfMemory exactly when less space remains; in the failing case the position and the chip state are unchanged; otherwise the position advances by exactly the buffer length.", "quantifier": "all reader/writer states and buffer lengths (including lengths above u16::MAX)", "why_tests_cant": "boundary must be exact at every length and pointer position", "anchors": ["hl/src/tcp.rs: TcpReader::read_exact, TcpWriter::write_all", "hl/src/udp.rs"]}
{"id": "C15", "title": "UDP datagrams are received whole and in order", "statement": "For every queue of received datagrams, udp_recv_from returns the oldest datagram's source address and the first min(len, buffer length) bytes of its payload and removes exactly that datagram (and nothing of the following ones) from the queue; on an empty queue it returns WouldBlock and changes nothing.", "quantifier": "all queues of datagrams, buffer lengths and ring positions", "why_tests_cant": "needs every datagram length, buffer length and wrap position", "anchors": ["hl/src/udp.rs: udp_recv_from, UdpHeader"]}
{"id": "C16", "title": "UDP peek does not consume", "statement": "udp_peek_from and udp_peek_from_header return the same data as udp_recv_from would but leave the receive queue unchanged, for every queue.", "quantifier": "all queues, buffer lengths", "why_tests_cant": "must hold for every ring position", "anchors": ["hl/src/udp.rs: udp_peek_from, udp_peek_from_header"]}
{"id": "C17", "title": "A UDP reader confines the user to one datagram", "statement": "udp_reader exposes exactly the payload of the oldest datagram, and done removes exactly that datagram regardless of how much was read or where the cursor is.", "quantifier": "all queues, reads and seeks before done", "why_tests_cant": "unbounded op sequences", "anchors": ["hl/src/udp.rs: udp_reader, UdpReader::done"]}
{"id": "C18", "title": "udp_send_if_free reports what was sent", "statement": "The count returned by udp_send_if_free (and udp_send_to_if_free) equals the number of payload bytes handed to the network: the data length if it fits in the free buffer space, 0 otherwise.", "quantifier": "all data lengths and free-space values", "why_tests_cant": "the failing branch depends on the buffer fill level", "anchors": ["hl/src/udp.rs: udp_send_if_free, udp_send_to_if_free"]}
{"id": "C19", "title": "UDP sends go to the requested destination with exactly the data", "statement": "udp_send_to(addr, data) hands to the network one datagram to addr whose payload is the first n bytes of data, n = min(data length, free space) being the returned value.", "quantifier": "all destinations, data and free space", "why_tests_cant": "unbounded data and ring positions", "anchors": ["hl/src/udp.rs: udp_send_to, udp_send"]}
{"id": "C20", "title": "Hostname validation accepts exactly the documented names", "statement": "Hostname::new accepts a string iff it is 1 to 253 bytes long, consists of ASCII letters, digits, '-' and '.', and every dot-separated label has 1 to 63 bytes and neither starts nor ends with '-'.", "quantifier": "all strings", "why_tests_cant": "string space is infinite", "anchors": ["hl/src/hostname.rs: Hostname::new"]}
{"id": "C21", "title": "Both Hostname constructors agree", "statement": "Hostname::new(s) succeeds iff Hostname::try_from(s) succeeds, for every string.", "quantifier": "all strings", "why_tests_cant": "two independent implementations of one predicate", "anchors": ["hl/src/hostname.rs: Hostname::new, TryFrom<&str>"]}
{"id": "C22", "title": "Socket operations touch only their own socket", "statement": "Every TCP/UDP operation on socket n (read, write, connect, listen, bind, send, receive, close) leaves the registers and buffers of every other socket and the common registers unchanged.", "quantifier": "all operations, sockets and chip states", "why_tests_cant": "needs all pairs of sockets and all states", "anchors": ["hl/src/tcp.rs", "hl/src/udp.rs", "hl/src/lib.rs"]}
{"id": "C23", "title": "Port uniqueness check is exact", "statement": "The debug check used by bind/listen/connect reports a conflict iff some other socket whose status is not Closed, CloseWait or Closing holds the same source port.", "quantifier": "all register contents of all eight sockets", "why_tests_cant": "8 sockets times all statuses and ports", "anchors": ["hl/src/lib.rs: port_is_unique"]}
{"id": "C24", "title": "Bus errors are propagated and never mistaken for success", "statement": "If any register access issued by an operation fails, the operation returns that error and issues no further access; a result other than Other means that every access succeeded.", "quantifier": "all operations and all failure points (which access fails first)", "why_tests_cant": "every crash point of every operation", "anchors": ["hl/src/tcp.rs", "hl/src/udp.rs", "hl/src/lib.rs"]}
{"id": "C25", "title": "WouldBlock means nothing happened", "statement": "When tcp_reader, tcp_read, udp_recv_from, udp_peek_from, udp_reader return WouldBlock the chip state is unchanged.", "quantifier": "all chip states", "why_tests_cant": "must hold at every partial-arrival point", "anchors": ["hl/src/tcp.rs: tcp_reader, tcp_read", "hl/src/udp.rs: udp_recv_from, udp_reader"]}
{"id": "C26", "title": "DNS queries are well-formed", "statement": "A query built with the client and one or more questions is, when sent, a DNS message whose header has QR=0, RD=1 and QDCOUNT equal to the number of questions, and whose question section decodes (RFC 1035 labels) to exactly the host names, types and classes asked.", "quantifier": "all valid host names, identifiers and numbers of questions", "why_tests_cant": "names and question counts are unbounded", "anchors": ["dns/src/lib.rs: Query::question, Query::send", "dns/src/header.rs: Header"]}
{"id": "C27", "title": "DNS responses are only accepted for the outstanding query", "statement": "Client::response yields a response only for a datagram that starts with a complete 12-byte header, has QR=1 and carries the requested identifier; every shorter or mismatching datagram is removed from the socket and reported as WouldBlock.", "quantifier": "all received datagrams and identifiers", "why_tests_cant": "all byte strings", "anchors": ["dns/src/lib.rs: Client::response", "dns/src/header.rs"]}
{"id": "C28", "title": "DNS name decoding is correct", "statement": "For a stream holding an RFC 1035 encoded name (labels, optionally ended by a compression pointer chain) followed by at least one further byte (as every name in a message is), the reader returns the dot-joined labels when they fit the caller's buffer and are UTF-8, and None otherwise, and leaves the stream positioned right after the name's first occurrence (after the first pointer or the zero byte).", "quantifier": "all messages, names, pointer chains and buffer sizes", "why_tests_cant": "unbounded names and chains", "anchors": ["dns/src/lib.rs: read_labels"]}
{"id": "C29", "title": "DNS name decoding terminates", "statement": "Decoding a name takes a bounded number of steps on every received message.", "quantifier": "all received byte strings", "why_tests_cant": "non-termination only shows on cyclic pointers", "anchors": ["dns/src/lib.rs: read_labels"]}
{"id": "C30", "title": "DNS resource record iteration is bounded and aligned", "statement": "next_rr yields at most ANCOUNT+NSCOUNT+ARCOUNT records, and after a successfully parsed record the stream is positioned exactly RDLENGTH bytes after its RDATA start, whatever the type of the record.", "quantifier": "all responses", "why_tests_cant": "all byte strings and record types", "anchors": ["dns/src/lib.rs: Response::next_rr"]}
{"id": "C31", "title": "DNS type and class codes decode exactly", "statement": "Qtype::try_from succeeds exactly on the listed codes and inverts u16::from; Qclass::try_from succeeds exactly on the class codes it lists ignoring only the top (cache-flush/unicast) bit.", "quantifier": "all 2^16 codes", "why_tests_cant": "bug only visible for codes with other high bits set", "anchors": ["dns/src/qtype.rs: Qtype::try_from", "dns/src/qclass.rs: Qclass::try_from"]}
{"id": "C32", "title": "DHCP messages have the RFC 2131 layout", "statement": "The DISCOVER and REQUEST messages sent have op=1, htype=1, hlen=6, the client's xid, seconds and hardware address, broadcast flag, zero ciaddr/yiaddr/siaddr/giaddr, the magic cookie at offset 236 and an option list that decodes to exactly the documented options ended by 255.", "quantifier": "all hardware addresses, xids, hostnames, requested and server addresses", "why_tests_cant": "field values are arbitrary", "anchors": ["dhcp/src/pkt.rs: PktSer::prepare_message, dhcp_discover, dhcp_request, send_dhcp_discover, send_dhcp_request"]}
{"id": "C33", "title": "DHCP option lookup is history independent", "statement": "Whatever options were looked up before, and however many, looking up an option code returns the same length and positions the reader on the same bytes as a fresh scan of the option area from offset 240: the first TLV with that code before the end marker, skipping pad bytes.", "quantifier": "all packets, all sequences of lookups", "why_tests_cant": "the location cache makes results depend on history", "anchors": ["dhcp/src/pkt.rs: PktDe::seek_to_option, option_location_cache_insert"]}
{"id": "C34", "title": "DHCP option accessors decode exactly", "statement": "Each accessor returns Some(value) exactly when the option is present with the required length (4 bytes; 1 byte; a positive multiple of 4 for address lists), the value being the big-endian contents.", "quantifier": "all packets", "why_tests_cant": "all byte strings", "anchors": ["dhcp/src/pkt.rs: find_option_fixed_size, find_option_ipv4_list, accessors"]}
{"id": "C35", "title": "A leased address is reported only while bound", "statement": "leased_ip returns Some exactly when the client is Bound, Renewing or Rebinding (has_lease); after a NAK, timeout or lease expiry the client address register has been cleared and leased_ip is None until a new ACK.", "quantifier": "all histories of process calls, received packets and clock values", "why_tests_cant": "unbounded histories", "anchors": ["dhcp/src/lib.rs: Client::process, leased_ip, has_lease, discover"]}
{"id": "C36", "title": "DHCP replies with a foreign transaction id never change the lease", "statement": "A received packet whose xid differs from the client's current xid never changes the state, the addresses or the timers.", "quantifier": "all states and packets", "why_tests_cant": "all packets at all points of all histories", "anchors": ["dhcp/src/lib.rs: Client::process recv"]}
{"id": "C37", "title": "DHCP lease timers are ordered and lease expiry is honoured", "statement": "After an ACK the renewal, rebind and lease times satisfy the client's derating and, at every process call after the lease time has elapsed without a new ACK, the client restarts with DISCOVER and clears its address; t1 and t2 elapsing moves to Renewing and Rebinding with a REQUEST.", "quantifier": "all lease options, clock readings and call schedules", "why_tests_cant": "clock values and schedules are unbounded", "anchors": ["dhcp/src/lib.rs: Client::process"]}
{"id": "C38", "title": "DHCP next_call is never too late", "statement": "The number of seconds process asks to be called after never exceeds the time to the next timer or state timeout.", "quantifier": "all states and clock values", "why_tests_cant": "all timers combinations", "anchors": ["dhcp/src/lib.rs: next_call"]}
{"id": "C39", "title": "Undesired DHCP packets do not block later ones", "statement": "Every packet that process reads and rejects (truncated, not a reply, foreign xid) is removed from the receive queue, so that the next packet is seen by the next call.", "quantifier": "all packets and states", "why_tests_cant": "needs an adversarial packet followed by a good one in every state", "anchors": ["dhcp/src/lib.rs: Client::process recv"]}
{"id": "C72", "title": "The DHCP client waits for the link", "statement": "As long as the client has not started and the PHY reports that the link is down, process returns 1 (second), sends nothing, consumes nothing and leaves the client as it is; with the link up (and no packet that concerns the client) it sends a DISCOVER or returns an error.", "quantifier": "all clients, queues and environment schedules", "why_tests_cant": "all environment schedules", "anchors": ["dhcp/src/lib.rs: Client::process"]}
{"id": "C40", "title": "SNTP replies are accepted only when valid", "statement": "on_recv_interrupt returns a reply only for a datagram from the configured server and port of at least 48 bytes with mode=server, version 4, stratum at most 15 and poll 0, and every field of the reply is the big-endian decoding of the documented bytes.", "quantifier": "all datagrams", "why_tests_cant": "all byte strings", "anchors": ["sntp/src/lib.rs: Client::on_recv_interrupt, Reply"]}
{"id": "C41", "title": "SNTP requests are 48-byte client packets", "statement": "request sends exactly one 48-byte datagram whose first byte encodes LI=0, version 4, mode client and whose other bytes are zero, to the configured server.", "quantifier": "all client configurations and chip states", "why_tests_cant": "depends on chip state", "anchors": ["sntp/src/lib.rs: Client::request"]}
{"id": "C42", "title": "NTP timestamps convert within a nanosecond", "statement": "For every second count representable in the timestamp's era window (1968 to 2104) and every nanosecond below 10^9, building a timestamp and reading it back gives the same seconds and nanoseconds not larger than and at most 1 below the original.", "quantifier": "all seconds and nanoseconds", "why_tests_cant": "2^32 times 10^9 values", "anchors": ["sntp/src/timestamp.rs: Timestamp"]}
{"id": "C43", "title": "NTP timestamps convert to a date within their second", "statement": "Every timestamp converts to a date that lies within the second the timestamp denotes, and differs from its exact value by less than two nanoseconds.", "quantifier": "all 2^64 timestamps", "why_tests_cant": "fails only at an extreme fraction", "anchors": ["sntp/src/timestamp.rs: Timestamp::nanos"]}
{"id": "C67", "title": "Dates convert to NTP timestamps or are refused", "statement": "Converting a date to an NTP timestamp either fails or gives a timestamp that converts back to the same date up to one nanosecond.", "quantifier": "all dates, in nanoseconds since 1900", "why_tests_cant": "an unbounded range of dates", "anchors": ["sntp/src/timestamp.rs: TryFrom<NaiveDateTime> for Timestamp, Timestamp::new, Timestamp::secs"]}
{"id": "C68", "title": "No datagram blocks the SNTP client", "statement": "on_recv_interrupt removes the datagram it looks at, and fails only with a bus error or WouldBlock, so that one bad datagram never hides later replies.", "quantifier": "all datagrams and any number of calls", "why_tests_cant": "depends on the whole history of received datagrams", "anchors": ["sntp/src/lib.rs: Client::on_recv_interrupt"]}
{"id": "C69", "title": "NTP fixed point numbers convert to their value", "statement": "The conversion of a fixed point number (16 bits before and 16 bits after the point) to a ratio gives exactly that number, without overflow.", "quantifier": "all 2^32 values", "why_tests_cant": "2^32 values", "anchors": ["sntp/src/fixed_point.rs: From<FixedPoint> for Ratio<u32>"]}
{"id": "C44", "title": "MQTT variable byte integers round-trip", "statement": "decode(encode(n)) = n with the right byte count for every n up to 268435455, the encoding is the shortest one, and decoding arbitrary bytes consumes at most four bytes and fails (rather than misreads) otherwise.", "quantifier": "all integers below 2^28 and all byte strings", "why_tests_cant": "2^28 values", "anchors": ["mqtt/src/data.rs: encode_variable_byte_integer, decode_variable_byte_integer", "mqtt/src/lib.rs: write_variable_byte_integer"]}
{"id": "C45", "title": "MQTT packets sent are well-formed", "statement": "CONNECT, PUBLISH, SUBSCRIBE and UNSUBSCRIBE packets sent have a fixed header whose remaining length equals the number of bytes that follow, and decode to the arguments given.", "quantifier": "all topics, payloads, filters, client ids and packet ids that fit", "why_tests_cant": "lengths are arbitrary", "anchors": ["mqtt/src/publish.rs: send_publish", "mqtt/src/subscribe.rs: send_subscribe, send_unsubscribe", "mqtt/src/connect.rs: send_connect"]}
{"id": "C46", "title": "MQTT packet identifiers are never zero and not reused too early", "statement": "Every packet identifier returned by subscribe or unsubscribe for a non-empty filter is non-zero, and two identifiers returned with fewer than 65534 such calls between them are different, in every history of calls and whatever the device does.", "quantifier": "all histories", "why_tests_cant": "wrap-around happens after 65535 calls", "anchors": ["mqtt/src/lib.rs: next_pkt_id, subscribe, unsubscribe"]}
{"id": "C47", "title": "MQTT receive consumes exactly one packet", "statement": "When a received packet is handled (CONNACK, SUBACK, UNSUBACK, PUBLISH after done, ignored types) the receive stream advances by exactly that packet's length, and an incomplete packet consumes nothing.", "quantifier": "all streams of packets and all fragmentations", "why_tests_cant": "all byte streams", "anchors": ["mqtt/src/recv.rs: recv", "mqtt/src/publish.rs: PublishReader"]}
{"id": "C48", "title": "MQTT publishes are delivered with the right topic and payload", "statement": "For every well-formed QoS 0 PUBLISH in the stream, the event's reader returns exactly its topic and payload, wherever the buffers are placed and in whatever order they are read.", "quantifier": "all topics, payloads and properties", "why_tests_cant": "unbounded data", "anchors": ["mqtt/src/recv.rs: recv", "mqtt/src/publish.rs: PublishReader::read_topic, read_payload"]}
{"id": "C49", "title": "An MQTT session is ready only after a successful CONNACK", "statement": "The client reports connected only in histories where process reported ConnAck, which it does only when the next received bytes begin a CONNACK with code 0, and since then reported no disconnect, no TCP or state timeout, no refused connection and no new connection attempt. While it is not connected, publish, subscribe and unsubscribe return NotConnected without using the device; once connected it stays so while process returns events.", "quantifier": "all histories of socket interrupts, received bytes and clock values", "why_tests_cant": "unbounded histories", "anchors": ["mqtt/src/lib.rs: Client::process, publish, subscribe", "mqtt/src/recv.rs"]}
{"id": "C50", "title": "MQTT client resets on error", "statement": "When process returns an error the client state is reset to Init (as the documentation of Error promises), so that the next call reconnects.", "quantifier": "all error paths", "why_tests_cant": "every error path in every state", "anchors": ["mqtt/src/lib.rs: Error, Client::process", "mqtt/src/recv.rs: recv"]}
{"id": "C51", "title": "MQTT client identifiers are validated exactly", "statement": "ClientId::new accepts exactly the strings of 1 to 23 ASCII letters and digits.", "quantifier": "all strings", "why_tests_cant": "infinite", "anchors": ["mqtt/src/client_id.rs: ClientId::new"]}
{"id": "C70", "title": "Malformed MQTT packets are reported", "statement": "When the bytes received cannot begin a valid packet (reserved packet type, a remaining length that does not end within four bytes or does not fit the device), process returns a decode error and resets the connection, so that the client does not stall.", "quantifier": "all byte streams and histories", "why_tests_cant": "all byte streams", "anchors": ["mqtt/src/fixed_header.rs: FixedHeader::deser", "mqtt/src/recv.rs: recv"]}
{"id": "C71", "title": "MQTT reason codes are those of the standard", "statement": "The conversion from a byte to each reason code type succeeds exactly for the codes the MQTT 5 standard lists for CONNACK, SUBACK and UNSUBACK, and the code of the result is that byte.", "quantifier": "all bytes", "why_tests_cant": "a missing or wrong code is one value among 256 in each table", "anchors": ["mqtt/src/connect.rs: ConnectReasonCode", "mqtt/src/subscribe.rs: SubAckReasonCode, UnSubAckReasonCode"]}
{"id": "C73", "title": "MQTT states time out after ten seconds", "statement": "While the client waits for the TCP connection or for CONNACK and nothing complete arrives, process asks to be called again when ten seconds have passed since the state was entered, and later than that resets the client and reports the timeout with the state; without a timeout it reports no event.", "quantifier": "all clock values, states and incomplete packets", "why_tests_cant": "all clock values", "anchors": ["mqtt/src/lib.rs: Client::process, StateTimeout"]}
{"id": "C52", "title": "TLS record nonces are never reused under one key", "statement": "For every sequence of records sent on a connection (TlsWriter::send, Client::write_all), the nonces used under one traffic key are pairwise different.", "quantifier": "all send histories", "why_tests_cant": "reuse depends on the mix of send functions over the whole history", "anchors": ["tls/src/key_schedule.rs: client_key_and_nonce, increment_write_record_sequence_number", "tls/src/lib.rs: send_encrypted_record, write_all", "tls/src/io.rs: TlsWriter::send"]}
{"id": "C53", "title": "TLS receive ring keeps unread data intact", "statement": "For every sequence of appends, reads and completed reads on the TLS receive buffer, bytes come out in the order they went in and an append that would overwrite unread bytes is refused.", "quantifier": "all operation sequences and capacities", "why_tests_cant": "needs particular head/tail positions", "anchors": ["tls/src/io.rs: Buffer, CircleReader, TlsReader"]}
{"id": "C54", "title": "TLS decryption inverts encryption and authenticates", "statement": "For every key, nonce, header and plaintext, decrypting what was encrypted returns the plaintext and the same tag; plaintext is exposed to the application only if the received tag equals the computed one.", "quantifier": "all keys, nonces, plaintext lengths", "why_tests_cant": "all lengths mod 16 and all values", "anchors": ["tls/src/crypto/aes/gcm.rs: Aes128Gcm", "tls/src/crypto/record.rs"]}
{"id": "C55", "title": "AES-128 block encryption conforms to FIPS-197", "statement": "Aes128 computes for every key and block the FIPS-197 cipher (SubBytes as inversion in GF(2^8) plus affine map, ShiftRows, MixColumns as polynomial multiplication, key expansion).", "quantifier": "all 2^128 keys and 2^128 blocks", "why_tests_cant": "test vectors cover single points", "anchors": ["tls/src/crypto/aes/cipher.rs"]}
{"id": "C56", "title": "GHASH is multiplication in GF(2^128)", "statement": "GHash::update/finalize computes for every hash key and block sequence the NIST SP 800-38D GHASH function.", "quantifier": "all keys, all block sequences", "why_tests_cant": "carry-less multiplication by integer multiplication fails only for particular bit patterns", "anchors": ["tls/src/crypto/aes/ghash.rs"]}
{"id": "C57", "title": "TLS ClientHello is well-formed for every host name and identity", "statement": "For every host name and every PSK identity that fits, the ClientHello has consistent record, handshake, extension and list lengths (the internal assertions never fire) and contains exactly the given random, host name, key share, identity and binder.", "quantifier": "all host names (1..253 bytes) and identities", "why_tests_cant": "lengths are arbitrary", "anchors": ["tls/src/handshake/client_hello.rs: ser"]}
{"id": "C58", "title": "TLS ServerHello is accepted only with the negotiated parameters", "statement": "A ServerHello is accepted only if it selects TLS 1.3, TLS_AES_128_GCM_SHA256, the null compression, a 65-byte secp256r1 share and PSK identity 0, each of the three extensions being present; every parse terminates.", "quantifier": "all byte strings", "why_tests_cant": "all byte strings", "anchors": ["tls/src/handshake/server_hello.rs: recv_server_hello", "tls/src/handshake/encrypted_extensions.rs"]}
{"id": "C59", "title": "TLS handshake order is enforced and no key is missing", "statement": "In every history of received records and socket events, the client becomes connected only after ServerHello, EncryptedExtensions and a Finished whose verify data matched, in that order on one connection, and the code never needs a key that has not been derived (no unwrap panics).", "quantifier": "all histories of events", "why_tests_cant": "unbounded adversarial histories", "anchors": ["tls/src/lib.rs: Client::process, recv, recv_handshake"]}
{"id": "C60", "title": "TLS fatal alerts are reported as fatal", "statement": "When the client aborts a connection the returned Error::Client alert has level Fatal, as sent on the wire.", "quantifier": "all abort paths", "why_tests_cant": "every abort path", "anchors": ["tls/src/alert.rs: Alert::new_fatal", "tls/src/lib.rs: send_fatal_alert"]}
{"id": "C61", "title": "The register simulator sends exactly the written bytes", "statement": "SEND in the simulator gives the operating system exactly the bytes between the transmit read and write pointers and moves the read pointer, for every pointer pair; hence udp_send_to on the simulator sends exactly the datagram, whatever arrives meanwhile. If the operating system fails, the error is reported and nothing is taken from the buffer.", "quantifier": "all pointer pairs and buffer sizes", "why_tests_cant": "only wrong after 64 KiB of traffic", "anchors": ["regsim/src/lib.rs: socket_cmd_send"]}
{"id": "C62", "title": "The register simulator's received size is the distance of the pointers", "statement": "After RECV the simulator's received-size register equals the number of bytes between the receive read and write pointers.", "quantifier": "all pointer pairs", "why_tests_cant": "only wrong after wrap-around", "anchors": ["regsim/src/lib.rs: socket_cmd_recv"]}
{"id": "C63", "title": "The register simulator's register file is a memory", "statement": "Reading back a writable register or a byte of a socket buffer of the simulator returns the byte written and no other byte of the address space changes; writes to read-only registers change nothing; writing ones to the interrupt register clears those bits; bursts are sequences of single bytes.", "quantifier": "all states, registers, sockets, addresses and values", "why_tests_cant": "all pairs of addresses", "anchors": ["regsim/src/lib.rs: common_reg_rd, common_reg_wr, socket_reg_rd, socket_reg_wr"]}
{"id": "C64", "title": "The random generator follows its recurrence", "statement": "The n-th identifier produced from a seed is the documented function of the n-times iterated 64-bit linear congruential state, and the state sequence has full period 2^64 (no seed gets stuck).", "quantifier": "all seeds and all n", "why_tests_cant": "period cannot be exhausted", "anchors": ["dns/src/rand.rs: Rand", "dhcp/src/rand.rs"]}
{"id": "C65", "title": "The chip is always deselected", "statement": "With the embedded-hal 0.2 variable-length driver, whatever the SPI transfers of an access do, including failing, the chip-select pin is high afterwards whenever the pin can be driven, and the caller gets the transfers' own result; if the pin cannot be pulled low the access reports that error and nothing is transferred.", "quantifier": "all SPI behaviours, all points of failure", "why_tests_cant": "needs failures injected at every transfer", "anchors": ["ll/src/eh0/vdm.rs: W5500::with_chip_enable, Registers::read, Registers::write"]}
{"id": "C66", "title": "The gateway configured from a DHCP lease is the router", "statement": "When an ACK makes the client bound, the subnet mask register of the device holds the subnet mask option and the gateway register holds the first address of the router option (RFC 2132 section 3.5).", "quantifier": "all ACKs and states", "why_tests_cant": "tests use a server that is also the router", "anchors": ["dhcp/src/lib.rs: Client::process", "dhcp/src/pkt.rs: PktDe::dhcp_server"]}
{"id": "C74", "title": "An OFFER is answered with a REQUEST for what was offered", "statement": "While waiting for offers, the client answers an OFFER with its transaction id, and no other message, with a REQUEST for the offered address (yiaddr) that names exactly the server in option 54 of this OFFER, and then waits for the acknowledgement; when the request does not fit in the transmit buffer an error is returned and nothing is sent.", "quantifier": "all messages, earlier client states, transmit buffer states", "why_tests_cant": "values left over from earlier offers only show in long histories", "anchors": ["dhcp/src/lib.rs: Client::process, Client::request", "dhcp/src/pkt.rs: PktDe::yiaddr, send_dhcp_request"]}
{"id": "C75", "title": "Closing, disconnecting and socket state queries", "statement": "close closes the socket in every state; tcp_disconnect starts a graceful disconnect of an established or half-closed connection and otherwise does nothing; is_state_closed, is_state_udp, is_state_tcp and local_addr report exactly the status, address and port the chip has at that moment; none of them changes anything else.", "quantifier": "all chip states, all 256 status codes, all sockets", "why_tests_cant": "all states and codes, and changes of the status between accesses", "anchors": ["hl/src/lib.rs: close, is_state_closed, is_state_tcp, is_state_udp, local_addr", "hl/src/tcp.rs: tcp_disconnect"]}
{"id": "C76", "title": "Client setup keeps the interrupts of other sockets enabled", "statement": "Setting up the socket of a DHCP, SNTP or MQTT client enables the interrupts of that socket and leaves the interrupts of every other socket enabled or disabled as they were, whatever the setup's result.", "quantifier": "all register contents, all sockets, all environment schedules", "why_tests_cant": "needs several sockets with every mask", "anchors": ["dhcp/src/lib.rs: Client::setup_socket", "sntp/src/lib.rs: Client::setup_socket", "mqtt/src/lib.rs: Client::tcp_connect"]}
{"id": "C77", "title": "TLS handshake messages are reassembled from any fragmentation", "statement": "Handshake messages that arrive in any number of records, cut anywhere, alone or several in one record, before or after application data, are handed to the handshake exactly once, unchanged, whole and in order.", "quantifier": "all messages, all fragmentations, all histories of application data", "why_tests_cant": "the number of fragmentations is unbounded; tests use one message per record", "anchors": ["tls/src/io.rs: Buffer::pop_handshake_record, read_head, pop_handshake_slices_of_n, extend_from_slice", "tls/src/lib.rs: recv_handshake"]}
{"id": "C78", "title": "TLS code points conform to the standards", "statement": "Content types, alert levels and descriptions, handshake types, key update requests, extension types, named groups and cipher suites convert from and to exactly the code points of RFC 8446 (and the RFCs it cites), and every other number is refused and returned unchanged.", "quantifier": "all 8-bit and 16-bit numbers, all names", "why_tests_cant": "a wrong code only shows with that code", "anchors": ["tls/src/record.rs: ContentType", "tls/src/alert.rs: AlertLevel, AlertDescription", "tls/src/handshake/mod.rs: HandshakeType", "tls/src/extension.rs: ExtensionType", "tls/src/cipher_suites.rs: CipherSuite", "tls/src/handshake/client_hello.rs: NamedGroup"]}
{"id": "C79", "title": "TLS keys are those of RFC 8446", "statement": "For every pre-shared key, key shares and handshake messages, the binder, the traffic secrets, the expected and the sent Finished, and for every sequence number the record key and nonce, are those of RFC 8446 sections 7.1, 7.3, 5.3, 4.4.4 and 4.2.11.2, each over exactly the messages the RFC names; different sequence numbers give different nonces.", "quantifier": "all pre-shared keys, key shares, messages and sequence numbers", "why_tests_cant": "a wrong transcript or label only shows against a correct peer with each message; sequence numbers of 64 bits", "anchors": ["tls/src/key_schedule.rs: KeySchedule, hkdf_expand_label, derive_secret"]}
{"id": "C80", "title": "A key update gives each direction its next traffic secret", "statement": "After a KeyUpdate message the traffic secret of each direction that is updated is HKDF-Expand-Label(its previous secret, \"traffic upd\", \"\", 32), RFC 8446 section 7.2.", "quantifier": "all traffic secrets and transcripts", "why_tests_cant": "needs a peer that updates its keys", "anchors": ["tls/src/key_schedule.rs: KeySchedule::update_traffic_secret"]}
{"id": "C81", "title": "TLS data are sent as one protected record or not at all", "statement": "Data given to Client::write_all, and data written with a TlsWriter (any sequence of writes and seeks) and sent, leave the socket as exactly one TLSCiphertext of RFC 8446 section 5.2: type application_data, the length, and the AEAD encryption of the data and their content type under the traffic key and the nonce of the sequence number, with the record header as additional data, and a tag that authenticates exactly those bytes. If the data do not fit, or the client is not connected, nothing is sent and an error is returned.", "quantifier": "all data, all writer programs, all positions in the transmit ring, all keys, sequence numbers and schedules", "why_tests_cant": "in place encryption across the wrap of the ring and block boundaries", "anchors": ["tls/src/lib.rs: Client::write_all, Client::writer, send_encrypted_record", "tls/src/io.rs: TlsWriter::send", "tls/src/record.rs: RecordHeader"]}
{"id": "C82", "title": "After the ServerHello only encrypted handshake messages are accepted", "statement": "Once the handshake keys exist, a handshake message in a record that is not encrypted does not change the state of the client or its keys (RFC 8446 section 5: such a record ends the connection with unexpected_message).", "quantifier": "all histories and all received records", "why_tests_cant": "an attacker may insert records at any point of the history", "anchors": ["tls/src/lib.rs: Client::recv, recv_unencrypted_body, recv_handshake"]}
{"id": "C83", "title": "TLS application data are delivered exactly as the server sent them", "statement": "When the client is connected, each call of process that reports application data has opened one record whose tag is right for the server's traffic secret, the next sequence number and the header that arrived, and has added exactly the content of that record to what the application can read. A record with application data that the server protected, that has arrived, respects the client's limit and fits, is delivered by the next call; any number of them are delivered completely and in order. A record with a wrong tag is never delivered: the connection ends with BadRecordMac and its keys are gone.", "quantifier": "all contents, records, traffic secrets, sequence numbers, buffer positions and histories, all schedules", "why_tests_cant": "an attacker chooses the bytes; the receive ring and the record buffer wrap at unrelated places; the number of records is unbounded", "anchors": ["tls/src/lib.rs: Client::process, recv, recv_header, decrypt_record_inplace, reader", "tls/src/io.rs: Buffer, TlsReader"]}
{"id": "C84", "title": "Every record that the server may send is accepted", "statement": "When the client is connected, a protected record with application data that respects RFC 8446 section 5.4 (any padding) and the record size limit that the client sent (RFC 8449 section 4) is delivered.", "quantifier": "all contents, paddings and lengths up to the limit", "why_tests_cant": "servers rarely pad and rarely send records of maximal length", "anchors": ["tls/src/lib.rs: Client::recv_header, decrypt_record_inplace, RECORD_SIZE_LIMIT", "tls/src/io.rs: Buffer::pop_content_type"]}
{"id": "C85", "title": "OPEN empties a socket of the simulator", "statement": "After OPEN of a TCP or UDP socket of the simulator the pointers are zero, nothing is unread and the status is that of the protocol (W5500 datasheet section 4.2).", "quantifier": "all states of the simulator", "why_tests_cant": "stale bytes only show when a socket is opened again after receiving", "anchors": ["regsim/src/lib.rs: socket_cmd_open"]}
{"id": "C86", "title": "The simulator's free-size register is the free size", "statement": "Sn_TX_FSR of the simulator is the size of the transmit buffer minus the number of queued bytes.", "quantifier": "all states reached by any sequence of accesses", "why_tests_cant": "depends on the history of writes", "anchors": ["regsim/src/lib.rs: socket_reg_rd, set_sn_tx_buf, socket_cmd_send"]}
{"id": "C87", "title": "The simulator queues what arrives, whole and in order", "statement": "A datagram or a chunk of a connection that the operating system has for a socket of the simulator is queued behind what is unread (a datagram with its origin and length in front), the received size is consistent and the RECV interrupt is raised.", "quantifier": "all states, contents, pointers and registers read", "why_tests_cant": "depends on pointers and on the fill of the buffer", "anchors": ["regsim/src/lib.rs: check_socket, sim_set_sn_rx_buf"]}
{"id": "C88", "title": "Alerts of the TLS server are reported", "statement": "When an alert of the server arrives, in the clear or encrypted, process returns Error::Server with the level and the description of that alert, and the client starts over without its keys.", "quantifier": "all states that receive, all alerts, all buffer contents", "why_tests_cant": "an alert may arrive at any time in any state", "anchors": ["tls/src/lib.rs: Client::recv_alert, Client::recv, Client::process"]}
{"id": "C89", "title": "A TLS handshake with an honest server is completed", "statement": "When the TCP connection of a TLS client is established, the first call of process sends exactly the ClientHello. When a server that knows the pre-shared key and selects what was offered has answered with its ServerHello, EncryptedExtensions and Finished, each in a record of its own, the next three calls of process finish the handshake: the last returns HandshakeFinished, exactly the Finished of the client has been sent, both sides have the same traffic secrets, and the client is ready for application data. This holds in a release build as long as the connection is not interrupted.", "quantifier": "all keys, host names, identities, buffer sizes that fit, server answers that fit, positions in the socket's buffers, arrivals in any number of pieces, interleavings with other events of the chip", "why_tests_cant": "the answers are a cryptographic function of everything sent before; arrivals are interleaved with every register access", "anchors": ["tls/src/lib.rs: Client::process, Client::recv, Client::send_client_hello, Client::recv_server_hello, Client::recv_encrypted_extensions, Client::recv_server_finished, Client::send_client_finished", "tls/src/key_schedule.rs: KeySchedule"]}
{"id": "C90", "title": "MQTT over TLS sends exactly the packets it is asked to send", "statement": "With a TLS connection, publish, subscribe and unsubscribe each send exactly one record, protected with the next sequence number, that contains exactly the MQTT packet for the arguments, or return an error because the transmit buffer has no room and send nothing. An empty filter sends nothing. When the handshake finishes, process sends CONNECT in the same way; from the TCP connection on, the bytes sent are the ClientHello, the Finished and the CONNECT record.", "quantifier": "all topics, payloads, filters, keys, sequence numbers, free sizes, positions in the socket's buffer, interleavings with the chip", "why_tests_cant": "the packet is built in pieces over a writer that encrypts in place in the chip's memory; the free size changes between accesses", "anchors": ["mqtt/src/tls.rs: Client::publish, Client::subscribe, Client::unsubscribe, Client::send_connect, Client::process", "tls/src/io.rs: TlsWriter"]}
{"id": "C91", "title": "MQTT over TLS receives the packets that were sent to it", "statement": "The plaintext received over TLS is parsed packet by packet, however it is split into records: a CONNACK, SUBACK, UNSUBACK or QoS 0 PUBLISH is reported with its contents and exactly that packet is consumed; packets of other types are consumed and ignored; an incomplete packet is left until the rest arrives; a malformed packet is an error.", "quantifier": "all packets, splits into records, states of the client, contents of the receive buffer", "why_tests_cant": "packets may start and end anywhere in the receive buffer, which wraps; readers may seek in any order", "anchors": ["mqtt/src/tls.rs: Client::process", "mqtt/src/recv.rs: recv", "tls/src/io.rs: TlsReader"]}
{"id": "C92", "title": "is_connected of the MQTT client over TLS tells whether there is an MQTT connection", "statement": "is_connected returns true from the ConnAck event on, and false before it and after the connection has ended.", "quantifier": "all histories of calls, all devices", "why_tests_cant": "histories are unbounded; the state is kept in two places, the TLS client and the MQTT client", "anchors": ["mqtt/src/tls.rs: Client::is_connected, Client::process"]}
{"id": "C93", "title": "After an error, calling process of the MQTT client over TLS connects again", "statement": "As the documentation of process says, the client can be used again after an error by calling process: it sets up a new connection.", "quantifier": "all errors of process and all further calls", "why_tests_cant": "an error can occur in every state and is followed by arbitrarily many calls", "anchors": ["mqtt/src/tls.rs: Client::process", "mqtt/src/lib.rs: Client::process"]}
{"id": "C94", "title": "The MQTT client over TLS sends no PUBLISH, SUBSCRIBE or UNSUBSCRIBE before the broker accepted the connection", "statement": "publish, subscribe and unsubscribe return NotConnected, and send nothing, unless a CONNACK with reason code 0 was received on this connection (as they do without TLS).", "quantifier": "all states of the client, arguments, devices", "why_tests_cant": "the states in which the TLS connection is up but the MQTT connection is not depend on the server", "anchors": ["mqtt/src/tls.rs: Client::publish, Client::subscribe, Client::unsubscribe"]}
{"id": "C95", "title": "Opening a socket configures it and brings it to the expected status", "statement": "When tcp_connect, tcp_listen or udp_bind returns Ok, the mode, source port and (for tcp_connect) destination registers of the socket hold exactly what the call was given, whatever else happened on the chip meanwhile; if nothing but the driver changes the status of the socket, each of the calls does return Ok and the socket is then in the status SYN_SENT, LISTEN or UDP. (A debug build may panic because the port is in use.)", "quantifier": "all sockets, ports, addresses, previous contents of the registers, interleavings with events of the chip", "why_tests_cant": "the socket may be in any state before the call, and the chip acts between any two register accesses", "anchors": ["hl/src/tcp.rs: Tcp::tcp_connect, Tcp::tcp_listen", "hl/src/udp.rs: Udp::udp_bind"]}
{"id": "C96", "title": "A client that is reset opens a connection to its server with its next call of process", "statement": "The first call of process of the MQTT client and of the TLS client, and the call after every reset, opens a TCP connection to exactly the configured server from the configured port, with the interrupts it waits for unmasked for its socket, without masking those of other sockets, with the socket's receive buffer (TLS) as large as the client's, and returns CallAfter(10).", "quantifier": "all configurations, previous contents of the chip, interleavings with events of the chip that do not change the status of the socket", "why_tests_cant": "the chip may be in any state when a client is reset", "anchors": ["mqtt/src/lib.rs: Client::process, Client::tcp_connect", "tls/src/lib.rs: Client::process, Client::tcp_connect"]}
{"id": "C97", "title": "A TLS record that has only partly arrived is waited for, and a silent server is given up after ten seconds", "statement": "While only a beginning of a record (perhaps nothing) has arrived, process consumes nothing, sends nothing and changes nothing; it returns None after the handshake, and during it CallAfter with the seconds that are left of ten, until more than ten seconds have passed: then it returns StateTimeout and begins to disconnect.", "quantifier": "all records, all places at which they are cut, clocks and states that receive", "why_tests_cant": "the network can cut a record anywhere; tests cut at few places", "anchors": ["tls/src/lib.rs: Client::process, Client::recv, Client::recv_header, Client::timeout_elapsed_secs"]}
{"id": "C98", "title": "TLS records that are out of place abort the connection, except the change_cipher_spec of the compatibility mode", "statement": "Any record that is not a handshake record, protected or not, between two parts of a handshake message aborts the connection with unexpected_message (RFC 8446, 5.1). A change_cipher_spec with the one byte 1 is dropped without an effect (RFC 8446, D.4); every other one aborts the connection. An abort is reported, the alert is sent if there is room, and the keys are forgotten.", "quantifier": "all records, contents of the buffer, states that receive and device schedules", "why_tests_cant": "depends on where the server and the network cut messages", "anchors": ["tls/src/lib.rs: Client::recv, Client::recv_change_cipher_spec, Client::send_fatal_alert", "tls/src/io.rs: Buffer::contains_handshake_fragment"]}
{"id": "C99", "title": "A TLS client whose connection failed connects again", "statement": "After a timeout during the handshake, after an abort, after a disconnection by the server and after a TCP timeout, further calls of process, made as the client asks, lead to a new connection attempt to the same server, with all old keys forgotten: the next call after a disconnection or TCP timeout; after a handshake timeout or an abort the client first disconnects and waits ten seconds.", "quantifier": "all states in which the connection can fail, all contents of the chip's registers and buffers, clocks", "why_tests_cant": "the recovery is a sequence of calls through several states whose order and times vary", "anchors": ["tls/src/lib.rs: Client::process, Client::tcp_connect, Client::set_state_send_discon, Client::reset"]}
{"id": "C100", "title": "Resetting the chip holds the reset pin low and then waits for the PLL", "statement": "When reset returns Ok, the pin has been low for at least 500 us and then high for at least 1 ms up to the return (the datasheet's reset cycle and PLL lock times); if the pin cannot be driven its error is returned, and the pin was not raised.", "quantifier": "all failures of the pin, all delays at least as long as asked", "why_tests_cant": "the failure points and the lengths of the delays depend on the board", "anchors": ["ll/src/eh0.rs: reset", "ll/src/eh1.rs: reset"]}
{"id": "C101", "title": "A DHCP client with a server on the network gets a lease", "statement": "A client that has not started, with the link up, sends a DISCOVER to the broadcast address; when the OFFER has arrived it sends a REQUEST for the address offered, naming the server, to the broadcast address; when the ACK has arrived it has the lease: leased_ip is the address offered, the address, mask and gateway are in the chip's registers, the times are seven eighths of those given, and the call asks to be called again at T1. Nothing else is sent and no call fails. Messages of another server do not prevent this.", "quantifier": "all addresses, servers, options, times, host names, transaction ids, sizes of the buffers, places of the messages in the buffers, interleavings of the network with the bus accesses", "why_tests_cant": "an exchange is three calls with two messages between them whose contents, places in the ring buffers and times are the network's choice", "anchors": ["dhcp/src/lib.rs: Client::process, Client::discover, Client::request", "dhcp/src/pkt.rs: PktDe, send_dhcp_discover, send_dhcp_request"]}
{"id": "C102", "title": "The simulated chip tells the driver what becomes of a connection", "statement": "CONNECT leaves the socket established with the CON interrupt when the operating system connects, and closed with the DISCON interrupt when it does not; LISTEN leaves it listening, or closed with the TIMEOUT interrupt when the port is taken; CLOSE leaves it closed; a client that connects to a listening socket makes it established with the CON interrupt, every time the socket listens; a peer that closes the connection is reported by the status. Nothing else changes, the other sockets least of all.", "quantifier": "all states of the simulator, sockets, answers of the operating system, sequences of reads", "why_tests_cant": "the answers of the operating system and the order of the accesses are unbounded; tests of the clients run on this simulator with a few of them", "anchors": ["regsim/src/lib.rs: socket_cmd_connect, socket_cmd_listen, socket_cmd_close, check_socket, raise_sn_ir"]}
{"id": "C103", "title": "An MQTT session delivers the broker's packets once and in order", "statement": "While a connection is neither closed nor lost, an application that calls process again and again, and reads each message and leaves its reader before the next call, sees exactly the packets the broker sent: each once, in order, the messages with their topics and payloads, however the bytes are cut into pieces and whenever these arrive. Every packet is seen after at most as many calls as there are packets, nothing is sent and no call fails.", "quantifier": "all lists of packets, fragmentations, interleavings of the network with the bus accesses, numbers of calls, ways to read a message", "why_tests_cant": "a session is an unbounded history of calls, and the cuts of the stream and the times of arrival are the network's choice", "anchors": ["mqtt/src/lib.rs: Client::process", "mqtt/src/recv.rs: recv", "mqtt/src/publish.rs: PublishReader"]}
{"id": "C104", "title": "An MQTT client connects to a broker that answers", "statement": "In a release build, a client that has not begun and is polled against a broker that accepts the TCP connection and answers with a successful CONNACK within ten seconds each becomes ready: the first call opens the socket, the calls before the connection and before the CONNACK ask to be called again at the end of the current ten-second timeout, exactly one packet is sent, the client's CONNECT packet, to the broker, however the CONNACK is cut into pieces, and the call after its last byte reports it. The socket is then positioned at the first byte after the CONNACK.", "quantifier": "all device states with supported buffer sizes, client configurations, times and numbers of calls, fragmentations of the CONNACK, interleavings of the network with the bus accesses", "why_tests_cant": "the times of the calls, the times at which the connection and the pieces of the CONNACK arrive, and the state of the device before are the environment's choice", "anchors": ["mqtt/src/lib.rs: Client::process", "mqtt/src/lib.rs: Client::tcp_connect", "mqtt/src/connect.rs: send_connect", "mqtt/src/recv.rs: recv"]}
{"id": "C105", "title": "An MQTT session carries messages in both directions", "statement": "While a connection is neither closed nor lost, an application may publish, subscribe and unsubscribe between its calls of process in any order. In a release build every request is accepted or refused with OutOfMemory; the broker is sent exactly the packets of the accepted requests, each once and in order, with the packet identifiers that were returned; and the application sees exactly the packets the broker sent, each once and in order, whatever arrives while it sends.", "quantifier": "all sequences of calls, topics, payloads and filters, lists of packets, fragmentations, interleavings of the network with the bus accesses", "why_tests_cant": "sends and receives share the socket, and their order and the arrival of data between and during them are the application's and the network's choice", "anchors": ["mqtt/src/lib.rs: Client::process", "mqtt/src/lib.rs: Client::publish", "mqtt/src/lib.rs: Client::subscribe", "mqtt/src/lib.rs: Client::unsubscribe"]}
{"id": "C106", "title": "A DHCP client whose requests are answered keeps its address", "statement": "A client that has a lease and is called in time keeps it: when T1 is over the next call sends a REQUEST for its address, and the call after the ACK has arrived starts the times of the lease again, with those of the ACK, sets the mask and gateway registers, and asks to be called at the new T1. As long as the ACKs arrive before the lease is over, no call fails, leased_ip and the address register hold the same address after every call, and the client sends nothing but REQUESTs for it. Other datagrams that arrive do not prevent this.", "quantifier": "all histories of calls at any times, times and options of the ACKs, host names, transaction ids, places of the messages in the buffers, interleavings of the network with the bus accesses", "why_tests_cant": "a lease lives for an unbounded number of renewals, and the times of the calls and the arrival of the answers are the caller's and the network's choice", "anchors": ["dhcp/src/lib.rs: Client::process, Client::request, Client::leased_ip"]}
{"id": "C107", "title": "The REQUESTs of a DHCP client have the form their purpose requires", "statement": "A REQUEST that answers an OFFER has a zero ciaddr, the address in option 50 and the server in option 54; a REQUEST that renews or rebinds a lease has the leased address in ciaddr and neither option (RFC 2131 section 4.3.2).", "quantifier": "all addresses, servers, host names, states of the client and of the buffers, interleavings of the network with the bus accesses", "why_tests_cant": "which form is sent depends on the history of the client; the addresses and places in the buffers are unbounded choices", "anchors": ["dhcp/src/lib.rs: Client::request", "dhcp/src/pkt.rs: send_dhcp_request"]}
{"id": "C108", "title": "Packet identifiers over TLS are never zero and not reused too early", "statement": "The identifiers that subscribe and unsubscribe of the MQTT client over TLS return are not zero, and two of them are different unless at least 65534 requests were made between them, whatever else was done with the client and whatever the device did.", "quantifier": "all histories of calls and of the device since the client was made, all filters other than the empty one, all devices", "why_tests_cant": "the identifier wraps after 65535 requests; requests that fail also use identifiers up, so the sequence depends on the whole history", "anchors": ["mqtt/src/tls.rs: Client::next_pkt_id, Client::subscribe, Client::unsubscribe"]}
{"id": "C109", "title": "The MQTT client over TLS reports what happened to its connection", "statement": "When the other side closes the connection, process returns Disconnect; when it does not answer, TcpTimeout; when it sends an alert, ServerAlert with the level and description; when it falls silent during the handshake, StateTimeout. None of the errors of the TLS client makes process, publish, subscribe or unsubscribe panic.", "quantifier": "all states of the client, all devices, all alerts, all interleavings of the network with the bus accesses", "why_tests_cant": "the errors for which the code has unreachable!() must be shown not to occur on any path of the TLS client, with any device", "anchors": ["mqtt/src/tls.rs: Client::process, map_tls_writer_err", "tls/src/lib.rs: Client::process, Client::writer, Client::recv_alert"]}
{"id": "C110", "title": "An MQTT session over TLS shows every packet once and in order", "statement": "On an established TLS connection, however the server cuts the MQTT packets into records and however the records arrive, before and during calls of process, the application sees each packet that arrived once, whole, in order, with the topic and payload that were sent, and no error; nothing is sent in reply and no record is taken twice or skipped. If process is called often enough after the records arrived, every packet in them is seen.", "quantifier": "all packet sequences, all divisions into records, all divisions of the records into segments, all interleavings of their arrival with the bus accesses, all numbers of calls", "why_tests_cant": "the position in the stream, in the record and in the packet interact; a packet can begin in one record and end several records later, and several packets can share a record", "anchors": ["mqtt/src/tls.rs: Client::process", "mqtt/src/recv.rs: recv", "tls/src/lib.rs: Client::process, Client::recv", "tls/src/io.rs: Buffer", "tls/src/crypto/record.rs: decrypt_record_inplace"]}
{"id": "C111", "title": "An MQTT session over TLS carries messages in both directions", "statement": "On an established TLS connection an application may call process, publish, subscribe and unsubscribe in any order, while the broker's records arrive: every request is accepted or refused because the transmit buffer is too full; for every accepted request exactly one record is sent, in order, which holds the packet with the returned identifier and is protected with the next sequence number; and the application sees the broker's packets, each once, whole and in order. Sending never disturbs what was received, and receiving never disturbs what is sent.", "quantifier": "all sequences of calls, requests, topics, payloads and filters, all packets of the broker, all divisions into records and segments, all interleavings of arrivals with the bus accesses", "why_tests_cant": "sending and receiving share the socket, the key schedule and the client; the sequence numbers of both directions advance independently over an unbounded history", "anchors": ["mqtt/src/tls.rs: Client::process, Client::publish, Client::subscribe, Client::unsubscribe", "tls/src/lib.rs: Client::process, Client::writer", "tls/src/io.rs: TlsWriter::send", "tls/src/crypto/record.rs: encrypt_record_inplace, decrypt_record_inplace"]}
{"id": "C112", "title": "An SNTP session returns each reply of the server once and in order", "statement": "After setup_socket, an application may call request and on_recv_interrupt in any order while datagrams from anybody arrive before and during the calls. In a release build one request of 48 bytes is sent to the server for each accepted call, and a call is refused only if fewer than 48 bytes are free. The replies returned are those of the acceptable messages from the server, each once, in the order received, none left out and none made up; when there is none the result is WouldBlock. Of the datagrams received at some time all are dealt with once on_recv_interrupt has been called that many times. A datagram of fewer than 48 bytes from the server ends this (C68): everything before it is returned, then UnexpectedEof.", "quantifier": "all sequences of calls, datagrams, senders and contents, places of the datagrams in the buffers, interleavings of arrivals with the bus accesses, device states before setup_socket", "why_tests_cant": "a session is an unbounded history in which the order of calls is the application's choice and the datagrams and the times they arrive are the network's", "anchors": ["sntp/src/lib.rs: Client::setup_socket, Client::request, Client::on_recv_interrupt", "hl/src/udp.rs: UdpReader, UdpWriter"]}
{"id": "C113", "title": "A DNS lookup shows each response once and in order", "statement": "After query, an application may call response any number of times, and for each response next_rr any number of times and then done, while datagrams from anybody arrive before and during the calls. In a release build the query is sent once to the server and nothing else is sent. The responses shown are the datagrams that are responses to the query (for the multicast client: all responses), each once, in the order received, none left out and none made up, each with its header and, if it is well-formed, its records in order and then none. Otherwise the result is WouldBlock. Of the datagrams received at some time all are dealt with once response has been called that many times. A response to the query with malformed questions ends this (C114).", "quantifier": "all sequences of attempts, buffer sizes, numbers of next_rr calls, datagrams, senders and contents, interleavings of arrivals with the bus accesses, device states before the query, both clients", "why_tests_cant": "a lookup is an unbounded history in which the datagrams and the times they arrive are the network's choice", "anchors": ["dns/src/lib.rs: Client::query, Client::response, Response::next_rr, Response::done", "dns/src/mdns.rs: Client::query, Client::response"]}
{"id": "C114", "title": "No datagram keeps a DNS client from seeing the ones after it", "statement": "Whatever datagram is first in the queue, calling response (and done on the result, if there is one) removes it, so that the next call deals with the datagram after it.", "quantifier": "all datagrams, identifiers, later arrivals, numbers of calls, both clients", "why_tests_cant": "the datagram is the network's choice, and that a client is blocked for ever is a statement about all later calls", "anchors": ["dns/src/lib.rs: Client::response", "dns/src/mdns.rs: Client::response"]}
{"id": "C115", "title": "The DNS and NTP servers the DHCP client reports are those of its present lease", "statement": "dns() and ntp() return the first address of option 6 and option 42 of the ACK the client is bound by, and None if that ACK has no such option or if there is no lease; t1(), t2() and lease_time() return the times of the lease and None if there is none.", "quantifier": "all histories of a new client: calls of process at any times, any replies, failed calls, other calls on the device", "why_tests_cant": "what is reported depends on the whole history of leases, renewals, refusals and timeouts", "anchors": ["dhcp/src/lib.rs: Client::dns, Client::ntp, Client::t1, Client::t2, Client::lease_time, Client::process"]}
{"id": "C116", "title": "A TLS handshake is completed however the server's records arrive and whenever process is called", "statement": "After the TLS client has sent its ClientHello, process is called any number of times, at times that do not go backwards, while the records of an honest server arrive cut into pieces anywhere, also within a record or its header, and also in the middle of a call. Every call asks for another call within ten seconds until one call finishes the handshake or reports a timeout. The handshake is finished by the third call after the records have arrived at the latest; then exactly the Finished was sent, both sides have the same keys and the client is ready for application data. A timeout is reported only more than ten seconds after the ClientHello. Until then nothing else is sent. This holds in a release build as long as the connection is not interrupted.", "quantifier": "all numbers and times of calls, all ways of cutting the stream into pieces, all moments at which they arrive, all keys, host names, identities, buffer sizes that fit, server answers that fit", "why_tests_cant": "every cut of the stream and every schedule of arrivals and calls is a different execution; the records are a cryptographic function of everything sent before", "anchors": ["tls/src/lib.rs: Client::process, Client::recv, Client::recv_header, Client::recv_unencrypted_body, Client::timeout_elapsed_secs", "hl/src/tcp.rs: TcpReader", "tls/src/key_schedule.rs: KeySchedule"]}
{"id": "C117", "title": "An MQTT client over TLS gets its CONNACK however the server's records arrive and whenever process is called", "statement": "After an MQTT client over TLS is connected and has sent its ClientHello, process is called any number of times, at times that do not go backwards, while the records of an honest server and then a record that begins with an accepting CONNACK arrive cut into pieces anywhere, also in the middle of a call. Every call asks for another call within ten seconds until one call reports the CONNACK or a timeout. The CONNACK is reported by the fourth call after the records have arrived at the latest; then exactly the Finished and one record with the CONNECT packet were sent after the ClientHello, and the connection is ready for the session, with what followed the CONNACK unread. A timeout is reported only more than ten seconds after the ClientHello. This holds in a release build as long as the connection is not interrupted and the transmit buffer has room for the three records at the beginning.", "quantifier": "all numbers and times of calls, all ways of cutting the stream into pieces, all moments at which they arrive, all keys, host names, identities, client identifiers, buffer sizes that fit, server answers that fit, CONNACK properties of less than 125 bytes", "why_tests_cant": "every cut of the stream and every schedule of arrivals and calls is a different execution, across three protocol layers with two timeouts", "anchors": ["mqtt/src/tls.rs: Client::process, Client::send_connect", "mqtt/src/recv.rs: recv", "tls/src/lib.rs: Client::process", "tls/src/io.rs: TlsWriter, TlsReader"]}
{"id": "C118", "title": "A DHCP client that gets no answer asks again after its timeout", "statement": "A client that has sent a DISCOVER or a REQUEST and gets no answer, or that is new and has its link up, sends one DISCOVER to the broadcast address, with the next transaction id, at each call of process made more than the timeout after it asked last, and nothing at the other calls. Each call returns the seconds that are left of the timeout, so that a client called exactly when it asked to be called returns 0 until the next second has begun. It has no lease meanwhile.", "quantifier": "all numbers and times of calls, clock values including those at which the clock wraps around, timeouts, host names, environment steps that bring no datagram to the socket", "why_tests_cant": "an unbounded history of calls, of which the application chooses the times", "anchors": ["dhcp/src/lib.rs: Client::process, Client::set_timeout_secs, Client::discover, Client::next_call"]}
{"id": "C119", "title": "A whole MQTT connection over TLS: everything sent and everything shown, from the ClientHello on", "statement": "An MQTT client over TLS is connected, sends its ClientHello, and process is called until it reports the CONNACK; then the application calls process, publish, subscribe and unsubscribe in any order. As long as everything received is a beginning of what an honest server and broker send (the handshake, a record that begins with an accepting CONNACK, records with whole or cut MQTT packets), everything sent since the beginning is, in this order: the ClientHello, the Finished, a record with the CONNECT, and one record for the packet of each accepted request, protected with the client's application secret and the sequence numbers 0, 1, 2, and so on. Every request is accepted, or refused because the transmit buffer is too full. The packets of the broker are shown once each, whole and in order, and a packet that has arrived is shown after a bounded number of calls.", "quantifier": "all orders and numbers of calls, requests, ways of cutting the packets into records and the stream into pieces, moments at which they arrive, keys, host names, identities, client identifiers, buffer sizes that fit", "why_tests_cant": "the property is about whole executions, from the first byte of the handshake to the last message, across three protocol layers", "anchors": ["mqtt/src/tls.rs: Client::process, Client::publish, Client::subscribe, Client::unsubscribe", "mqtt/src/recv.rs: recv", "tls/src/lib.rs: Client::process, Client::writer", "tls/src/io.rs: TlsWriter, TlsReader"]}
{"id": "C120", "title": "An mDNS query sets the socket up for the multicast group before it opens it", "statement": "A query of the multicast DNS client (a_question, ptr_question) sets its socket up as multicast DNS needs it: UDP with multicasting, the given source port or 5353, the hardware address 01:00:5E:00:00:FB, the time to live 255 and the destination 224.0.0.251 port 5353; it opens the socket exactly once; and, as the documentation of SocketMode says of multicasting, the destination registers hold the group's address and port before the socket is opened, so that the answers sent to the group are received.", "quantifier": "all sockets, ports, questions, states of the chip before the query and schedules of the environment", "why_tests_cant": "the order of the register writes matters for every state the chip can be in before the query; a test that only looks at the datagram sent does not see it", "anchors": ["dns/src/mdns.rs: Client::new, Client::query, Client::a_question, Client::ptr_question", "ll/src/registers.rs: SocketMode::multi_enabled"]}
{"id": "C121", "title": "Nothing received makes the DNS, SNTP, DHCP or MQTT client panic", "statement": "No call of the DNS, multicast DNS, SNTP, DHCP and MQTT clients panics, whatever the peers send, whatever the registers and buffers of the device read as, and whichever accesses fail with an error of the bus: not setting up or connecting, not querying, not looking for an answer, not reading its records or a published message after any number of earlier reads, not process in any state of the client. For the DHCP client the device reports no more received bytes than its largest receive buffer holds (16384). In a build with debug assertions and overflow checks this holds if the assertions about the status of the socket and about the port hold, if the clock does not go backwards, and for topic filters whose length modulo 65536 leaves room for the fields added to it.", "quantifier": "all devices (any answer to any read, any failing access), all states of the clients, all received bytes, all arguments, all sequences of reads", "why_tests_cant": "a panic stops the firmware; no finite set of malformed packets shows that none causes one", "anchors": ["dns/src/lib.rs: Client::query, Client::response, Response::next_rr, Response::done", "dns/src/mdns.rs: Client::query, Client::response", "sntp/src/lib.rs: Client::setup_socket, Client::request, Client::on_recv_interrupt", "dhcp/src/lib.rs: Client::setup_socket, Client::process", "dhcp/src/pkt.rs: PktDe", "mqtt/src/lib.rs: Client::process, Client::publish, Client::subscribe, Client::unsubscribe, Error::map_w5500", "mqtt/src/recv.rs: recv", "mqtt/src/publish.rs: PublishReader::read_topic, PublishReader::read_payload, PublishReader::done"]}
{"id": "C122", "title": "Nothing received makes the TLS client panic", "statement": "After any history of calls, process of the TLS client does not panic, whatever the server or anyone else sends, whatever the registers and buffers of the device read as, and whichever accesses fail with an error of the bus: not on a record header, a record body, a change cipher spec, an alert, a handshake message or its parts, not on a sequence number, a decryption or a missing key, not when connecting, sending the client hello or giving up. An error leaves a client without a connection. write_all on a connected client panics exactly for data that does not fit one record, 65519 bytes or more. Assumed: fewer than 2^64 calls, a server name and an identity with which the client hello fits the receive buffer, no received bytes reported before the connection is; and in a build with debug assertions that the assertions about the status of the socket and the port hold and that the clock does not go backwards.", "quantifier": "all histories of process, write_all, writer and reader calls on all devices (any answer to any read, any failing access), all received bytes, all keys", "why_tests_cant": "a panic stops the firmware and can be caused by anyone who can reach the connection; no finite set of malformed records shows that none causes one", "anchors": ["tls/src/lib.rs: Client::process, Client::recv, Client::recv_header, Client::recv_unencrypted_body, Client::recv_handshake, Client::recv_change_cipher_spec, Client::recv_alert, Client::send_client_hello, Client::send_alert, Client::write_all", "tls/src/crypto/record.rs: decrypt_record_inplace", "tls/src/io.rs: Buffer", "tls/src/crypto/aes/gcm.rs: Aes128Gcm"]}
{"id": "C123", "title": "A client writes only to its own socket", "statement": "The DNS, multicast DNS, SNTP, DHCP, MQTT, TLS and MQTT over TLS clients write only to the registers and buffers of the socket they were made with, whatever the peers send, whatever the device answers and whichever accesses fail, so the other sockets and their clients are left alone. The exceptions are what they are there to configure: setting up the socket of an SNTP or DHCP client and starting to connect an MQTT or TLS client write the socket interrupt mask register, a DHCP client writes the gateway, the subnet mask and the source address (the source address also in setup_socket), each as a whole register. The readers they return, and the client after a call, are of the same socket.", "quantifier": "all devices (any answer to any read, any failing access), all states of the clients, all received bytes, all arguments", "why_tests_cant": "a stray write to a register of another socket shows only in a test that looks at every register after every call in every state", "anchors": ["dns/src/lib.rs: Client::query, Client::response, Response::next_rr, Response::done", "dns/src/mdns.rs: Client::query, Client::response", "sntp/src/lib.rs: Client::setup_socket, Client::request, Client::on_recv_interrupt", "dhcp/src/lib.rs: Client::setup_socket, Client::process", "mqtt/src/lib.rs: Client::process, Client::publish, Client::subscribe, Client::unsubscribe", "mqtt/src/publish.rs: PublishReader::read_topic, PublishReader::read_payload, PublishReader::done", "tls/src/lib.rs: Client::process, Client::write_all, Client::writer", "tls/src/io.rs: TlsWriter::write_all, TlsWriter::send", "mqtt/src/tls.rs: Client::process, Client::publish, Client::subscribe, Client::unsubscribe"]}
{"id": "C124", "title": "A failure of the bus ends a client's call with that error", "statement": "When an access to the device fails with an error of the bus during a call of the DNS, multicast DNS, SNTP, DHCP or MQTT client, the call makes no further access and returns that very error; and a call returns an error of the bus only if its last access failed with it. No failure is swallowed, retried, replaced by another error or taken for an absent packet.", "quantifier": "all devices (any answer to any read), all failing accesses at any point of any call, all states of the clients, all arguments", "why_tests_cant": "needs a failure injected at every access of every path through every call", "anchors": ["dns/src/lib.rs: Client::query, Client::response, Response::next_rr, Response::done", "dns/src/mdns.rs: Client::query, Client::response", "sntp/src/lib.rs: Client::setup_socket, Client::request, Client::on_recv_interrupt", "dhcp/src/lib.rs: Client::setup_socket, Client::process", "mqtt/src/lib.rs: Client::process, Client::publish, Client::subscribe, Client::unsubscribe, Error::map_w5500", "mqtt/src/publish.rs: PublishReader::read_topic, PublishReader::read_payload, PublishReader::done"]}
{"id": "C125", "title": "A call of the TLS client never reports success after a failed access", "statement": "When a call of process, write_all, writer or send of the TLS client, or of process, publish, subscribe or unsubscribe of the MQTT client over TLS, returns a success, no access to the device failed during it: a failure of the bus at any point, also in the middle of a record or while an alert is sent, makes the call fail. (The error is not the one of the bus: TLS reports an alert or an error of its own.)", "quantifier": "all devices (any answer to any read), all failing accesses at any point of any call, all states of the clients, all keys, all arguments", "why_tests_cant": "needs a failure injected at every access of every path through every call", "anchors": ["tls/src/lib.rs: Client::process, Client::write_all, Client::writer, Client::send_alert, Client::send_fatal_alert", "tls/src/io.rs: TlsWriter::send", "mqtt/src/tls.rs: Client::process, Client::publish, Client::subscribe, Client::unsubscribe"]}
{"id": "C126", "title": "Sending application data and the MQTT client over TLS do not panic", "statement": "On a connected TLS client, writer, and send of the writer wherever it was seeked to, return: they do not panic, also when the device answers anything or fails, and an alert then has to be sent. So do publish, subscribe and unsubscribe of the MQTT client over TLS. process of the MQTT client panics only where process of the TLS client below does: no content of the records, however malformed, makes it panic. Reading the topic and payload of a message it returned, any number of times and into buffers of any size, and done, do not panic either.", "quantifier": "all histories of the TLS client, all devices (any answer to any access, or a failure), all contents of the records, all topics, payloads and filters, all reads of a message, in debug and release builds", "why_tests_cant": "the decrypted content and the numbers in the registers are arbitrary; a test tries a few", "anchors": ["tls/src/lib.rs: Client::writer, Client::reader", "tls/src/io.rs: TlsWriter::write_all, TlsWriter::send, TlsReader", "tls/src/crypto/record.rs: encrypt_record_inplace", "mqtt/src/tls.rs: Client::process, Client::publish, Client::subscribe, Client::unsubscribe", "mqtt/src/recv.rs: recv", "mqtt/src/publish.rs: PublishReader::read_topic, PublishReader::read_payload, PublishReader::done"]}
{"id": "C127", "title": "The text of a hardware address gives its octets", "statement": "Displaying an EUI-48 address gives 17 characters: the six octets in order, each as two upper-case hexadecimal digits, with colons between them. Different addresses have different texts.", "quantifier": "all 2^48 addresses", "why_tests_cant": "there are too many addresses to try; a dropped leading zero or a swapped octet shows only for some", "anchors": ["ll/src/net.rs: impl Display for Eui48Addr"]}
{"id": "C128", "title": "Calls of the socket layer end after a fixed number of bus accesses", "statement": "Every call of the TCP and UDP traits, of their readers and writers and of the common trait makes at most a fixed, small number of accesses to the chip, whatever the chip answers and however long the data and buffers are: for example five for reading from or writing to a TCP socket, one for read or write on a reader or writer, and none for seeking. The exceptions are connect, listen and bind: they read the status of their socket until the chip has changed it, but make only a fixed number of other accesses.", "quantifier": "all devices (any answer to any access, or a failure), all sockets, all lengths of data and buffers, all states of readers and writers, debug and release builds", "why_tests_cant": "a loop that depends on what the chip answers shows only with particular answers; the number of accesses has to hold for all of them", "anchors": ["hl/src/tcp.rs: Tcp, TcpReader, TcpWriter", "hl/src/udp.rs: Udp, UdpReader, UdpWriter", "hl/src/lib.rs: Common, port_is_unique"]}
{"id": "C129", "title": "Calls of the SNTP and MQTT clients end after a fixed number of bus accesses", "statement": "An SNTP request makes at most 4 accesses to the chip, on_recv_interrupt at most 8. Once an MQTT client has opened its socket, process makes at most 9 accesses, in every state and whatever the server sends; publish and subscribe at most 9, unsubscribe at most 8, read_topic and read_payload 1, done 2, however long the data are. Setting up the SNTP socket, and the call of process that connects, read the status of the socket until the chip has changed it, but make at most 9 other accesses. A debug build adds one access to read the status of the socket, and 14 to compare the port with those of the other sockets.", "quantifier": "all devices (any answer to any access, or a failure), all states of the client, all topics, payloads, filters and buffer lengths, debug and release builds", "why_tests_cant": "a loop that depends on what the server sends shows only with particular packets; the number of accesses has to hold for all of them", "anchors": ["sntp/src/lib.rs: Client::setup_socket, Client::request, Client::on_recv_interrupt", "mqtt/src/lib.rs: Client::process, Client::publish, Client::subscribe, Client::unsubscribe", "mqtt/src/recv.rs: recv", "mqtt/src/publish.rs: PublishReader"]}
{"id": "C130", "title": "The number of bus accesses of a DNS query depends only on the labels of its names", "statement": "A DNS query with any questions makes at most 9 accesses to the chip (14 more in a debug build, to compare the port with those of the other sockets), and for every question two for each label of the name and one; a multicast DNS query makes 11 instead of 9. Reads of the status while the socket is opened come on top. Nothing else that the chip answers, and no length of a label, changes the bound. Dropping a response makes at most 2 accesses.", "quantifier": "all devices (any answer to any access, or a failure), all lists of questions, all names, all states of the client, debug and release builds", "why_tests_cant": "a loop over what the chip answers shows only with particular answers; the number of accesses has to hold for all of them, and for all names", "anchors": ["dns/src/lib.rs: Client::query, Query::question, Query::send, Response::done", "dns/src/mdns.rs: Client::query"]}
{"id": "C131", "title": "A call of the DHCP client that finds no datagram ends after a fixed number of bus accesses", "statement": "When nothing has been received, process makes at most 36 accesses to the chip (16 more in a debug build), in every state of the client, at every time and with every host name; this includes sending a DHCPDISCOVER or a DHCPREQUEST. setup_socket makes at most 9 (14 more in a debug build). Reads of the status of the socket while it is opened come on top.", "quantifier": "all devices that report no received data (any other answer to any access, or a failure), all states of the client, all times, all host names and hardware addresses, debug and release builds", "why_tests_cant": "the state, the timers and what the chip answers decide which messages are sent; the number has to hold for all combinations", "anchors": ["dhcp/src/lib.rs: Client::process, Client::setup_socket, Client::discover, Client::request", "dhcp/src/pkt.rs: send_dhcp_discover, send_dhcp_request"]}
{"id": "C132", "title": "The number of bus accesses for sending application data over TLS depends only on the number of blocks", "statement": "Sending data with write_all makes at most 6 accesses to the chip and one for every whole block of 16 octets. A writer takes 2 accesses to be made and one for every write_all; send, which encrypts what was written in the buffer of the chip, makes at most 6 accesses and two for every whole block of 16 octets. Nothing that the chip answers, and no key, changes the bounds.", "quantifier": "all devices (any answer to any access, or a failure), all states and keys of the client, all data, all positions of the writer", "why_tests_cant": "a loop that depends on what the chip answers shows only with particular answers; the number of accesses has to hold for all of them and for all data", "anchors": ["tls/src/lib.rs: Client::write_all, Client::writer, Client::send_encrypted_record", "tls/src/io.rs: TlsWriter", "tls/src/crypto/record.rs: encrypt_record_inplace"]}
{"id": "C133", "title": "The text of a register tells the value of each of its fields", "statement": "Displaying a register value (Mode, Interrupt, PhyCfg, SocketMode, SocketInterrupt, SocketInterruptMask) gives a text in which every field has its name and the value of its own bits of the register: true or false for flags, the name of the variant for the operation mode, duplex, speed, link and protocol, and the code for a protocol that is none. The text of a SocketMode determines the register.", "quantifier": "all values of the registers, including those with reserved codes", "why_tests_cant": "a field that shows the value of another one shows only for values in which the two differ; every value of every register has to be looked at", "anchors": ["ll/src/registers.rs: impl Display for Mode, Interrupt, PhyCfg, SocketMode, SocketInterrupt, SocketInterruptMask", "ll/src/specifiers.rs: Protocol, OperationMode, DuplexStatus, SpeedStatus, LinkStatus"]}
