# Formal model of newAM/w5500-rs: design

The theorems here are about a Lean 4 model, written by reading the Rust source in `/repo` as text.  Nothing in this project runs the
Rust code.  The tie between model and code is the citation (file and lines) above each definition.

## Layout

| path | contents |
| --- | --- |
| `properties.jsonl` | the properties, C01 … |
| `MANIFEST.json` | status of each property and the exact names of its theorems |
| `lean/Verif/Model/` | the model: one file per Rust module, each definition cites the lines it models |
| `lean/Verif/Spec/` | small specifications, written without the model's helpers |
| `lean/Verif/Proof/` | helper lemmas |
| `lean/Verif/Thm/` | property theorems, named `Cnn_…`, each with a non-vacuity `example` |
| `seeded/LOG.jsonl` | wrong programs that were tried, and the theorems that noticed them |

A property that the code violates is proved false, with a witness or for all inputs, and what does hold is proved under a name that ends
in `_partial`.  Both are listed in the manifest under the same property, with status `partial`.

## Modelling conventions

* `u8` … `u64` are Lean's `UInt8` … `UInt64` (wrapping arithmetic is exact).  Where the Rust code uses a checked operation, or one that panics
  in a debug build, the model returns `Err.panic`; a parameter `dbg` tells a debug from a release build where they differ.  `usize` is
  `Nat`: it is assumed, not proved, that no `usize` of the code overflows.
* A `&mut self` method is a state transformer `σ → Except Err α × σ` (`M σ α`; for TLS `X ε σ α`, which separates returned errors from
  panics).  The state survives an error, as in Rust when `?` returns early.
* A function generic over `Registers` is generic over a structure `Bus σ` with the two required methods `read` and `write`.  Theorems about
  failures, panics and own-socket accesses quantify over all buses; theorems about effects take the bus `worldBus` below.
* Functions generic over `Read`/`Write`/`Seek` are programs (`RProg`, `WProg`, free monads over the operations), which are run on each
  implementation.
* Loops are structural recursion, or take a fuel argument.  Running out of fuel is the separate error `Err.hang`; theorems show
  that it does not occur for the stated fuel, or for any fuel.  Where no fuel suffices that is the finding (C29).
* Cryptographic primitives from other crates (sha2, hmac, hkdf, p256) are fields of a structure `Crypto`.  Theorems about keys assume
  `Crypto.Standard`: the first three compute SHA-256, HMAC and HKDF as specified in `Spec/Sha256.lean`.  P-256 stays abstract (`dh`, `sec1`);
  nothing is assumed of it.  AES-128, GHASH and GCM are code of this repository and are modelled.
* The memo table in `Thm/TlsWitness.lean` (`Witness.X`) is a `Crypto` that looks precomputed hash values up; `Witness.standard` proves in
  the kernel that it computes the standard functions.

## The world

`Spec/World.lean` is the W5500 as the driver sees it, from the datasheet: register memory per block, ring buffers addressed modulo the
configured size, effects of the command register, and an environment.  Before every single access of the driver the environment may perform any
list of steps (`EnvStep`): bytes arrive, the status of a socket changes, sent bytes are acknowledged, interrupts are raised.  Theorems quantify
over all schedules of such steps, so that every interleaving of the driver with the network is covered.  What this model assumes, and
the theorems that use it therefore trust:

* one access of the driver (one SPI frame) is atomic; a 16-bit register is read and written in one access;
* a command takes effect at once, SEND moves all bytes up to the write pointer to the network and RECV frees those up to the read pointer;
* bytes that arrive and do not fit into the receive buffer are dropped as a whole (for TCP this is the window, for UDP loss);
* the environment changes nothing but the registers named above (in particular it does not write the driver's pointers).

Hypotheses about the environment that appear in theorems: `RxState`/`TxState` (the pointers of a socket describe the bytes received and
sent so far; established by OPEN, see `C12_open_establishes`), `Peace`/`Quiet` (no CON, DISCON or TIMEOUT interrupt of this socket), `Still`
(nothing arrives during a call), `Pause` (what happens between two calls).

## Plan and result per property

Low level driver:

* C01, C06, C07, C08, C31, C71, C78: finite tables; `decide +kernel` over the complete domain, or case analysis, against tables copied from the
  datasheet or standard.
* C02, C03, C65, C100: SPI headers against a decoder written from the datasheet; a bus slave executes frames; C65 is about the chip select pin for
  every failure point, C100 about the reset pin.  C03 covers all five drivers.
* C04, C05: each accessor over a plain memory: get after set, and no other address changes.

High level driver:

* C95, C96: opening sockets, and how the clients connect: the registers and the status of the socket afterwards, from every chip state.
* C09–C14, C75: stream readers and writers refine a cursor over a byte list; induction over lists of operations.
* C12, C13, C15–C19, C25: over `worldBus`, for all schedules.  C22, C24: over all buses.
* C20, C21: the byte automaton of the host name against a label-wise specification.  C23: fold over the socket list.

Protocol clients:

* C26–C31, C113, C114, C120 DNS: message writer and reader against RFC 1035; C29 pointer loops never return; C113 is an induction over the attempts of a lookup, with the same queue as C112; C120 is about the registers of the multicast socket at the OPEN command, which a recording bus shows.
* C121 panics: `Spec/Panic.lean` allows a device to answer anything; `Proof/Panic*.lean` is a logic for reader and writer programs (`RSafe`, `WSafe`) in which every read returns any bytes of the right length, and an invariant for the client (`Safe`). The facts that matter: cached option locations lie in the packet, at most four length bytes are decoded, and the end of a published message is an offset in the stream.
* C122 panics of the TLS client: `Spec/PanicTls.lean` has the histories (`TlsHistory`, which say whether application data has arrived) and the hypotheses about the device; `Proof/PanicTls.lean` and
  `Proof/PanicTlsClient.lean` are triples (`TP`) for every function of the client, with an invariant of the receive buffer (`Clean`: head and application data at zero, and room for the bytes that were stored), of the
  counter of the cipher (`GC`) and of the sequence numbers. `wait` is needed because a client that waits for its connection has a buffer from the last one.
* C126 panics of sending and of MQTT over TLS: `Proof/PanicTlsSend.lean` is a logic (`NP`) for the TLS writer: what can fail is the bus, never a block of the cipher, because the
  payload of a record is at most the 16-bit free size. `Proof/PanicMqttTls.lean` shows that the reader of the TLS client meets the conditions `RSafe` of C121 for reader programs, with the invariant of the receive buffer from C88.
  `Spec/PanicMqttTls.lean` has the calls and messages; the theorems are in `Thm/PanicTlsSend.lean`.
* C128 number of accesses: `Proof/Cost.lean` is a logic for bounds on the length of the list of accesses of `Spec/Trace.lean`; `notStatus` leaves out the reads of the status in the loops that wait for it.
* C129 number of accesses of the SNTP and MQTT clients: `Proof/CostMqtt.lean` counts the reads and writes of the programs that run on readers and writers, and carries the bound to the bus.
* C130 number of accesses of DNS queries: the same, by induction on the labels and the questions.
* C131 number of accesses of the DHCP client without a datagram: the same, with the socket of the client as an invariant (`DM` in `Thm/CostDhcp.lean`).
* C132 number of accesses for sending over TLS: the same, by induction on the blocks.
* C127 text of hardware addresses: `Spec/Display.lean` is a reader of such texts; the proof is that the reader inverts `Display`.
* C133 text of registers: `Spec/DisplayRegs.lean` reads texts of the form `Name { field: value, … }`; it is proved, by induction on the fields, to invert `debug_struct`, and each value is then compared with the bits of the register through C07.
* C123–C125 accesses of the clients: `Spec/Trace.lean` has a bus that lists the accesses (`traceBus`), which writes are to a socket or a common register (`OfSocket`, `OfCommon`), and what it means that a failure is reported (`Reported`). `Proof/Trace.lean` is a Hoare logic (`Tr`) for both at once, with the calls of the high-level layer from the closure lemmas of `Proof/Closed.lean`; `Rp` and `Wp` say that a reader or writer program passes failures on, which is proved for the programs of the clients in `Proof/TraceProgs.lean`; `Proof/TraceClients.lean` goes through the clients, with the invariant that the client and its readers stay on the socket. C124 does not hold for TLS, which replaces errors of the bus by its own and sends an alert after them; there the claim is C125, that no call succeeds after a failed access. `Proof/TraceTls.lean` and `Proof/TraceMqttTls.lean` have the logic (`XC`, `XK`, `XM`) for it and for the writes of C123; the theorems are in `Thm/TraceTls.lean`.
* C32–C39, C66, C72, C74, C101, C106, C107, C115, C118 DHCP: message layout, options, and the client as a state machine over a queue of datagrams and a clock; C101 puts
  the three calls of an exchange together; C106 is an induction over the calls of a client with a lease; C118 one over the calls of a client that gets no answer.
* C40–C43, C67–C69, C112 SNTP: packet and timestamp arithmetic; C112 is an induction over the calls of a session, with the socket as a queue of datagrams.
* C44–C51, C70, C73, C76, C103–C105 MQTT: encoders against a decoder, receive as a parser of the byte stream, states; C104 composes the calls from the first one to the CONNACK; C103 is an induction over the calls of a session; C105 adds the calls that send, which keep what C103 relies on, as the calls of C103 keep
  what sending relies on.
* C52–C60, C77–C84, C88, C89, C97, C98, C99, C116 TLS: AES/GHASH/GCM against FIPS-197 and SP 800-38D, key schedule against RFC 8446, receive buffer as a
  queue, client as a state machine; C59 is an invariant of all histories (`Reached`), C83 is authenticity and delivery of records, C89 is
  completeness: a handshake with an honest server finishes, for all keys and interleavings; C97 and C98 are about records that are cut or out of place; C99 follows a client over several calls from a failure to the next connection;
  C116 is an induction over the calls of `process`: a call during which the bytes of a record arrive either leaves the client as it is or has the effect
  of the call in a world where the record was there at its beginning (`arrive_cases`).
* C90–C94, C108–C111, C117, C119 MQTT over TLS: the encoders and the parser of the MQTT client run on the TLS writer and reader, so that the theorems about records
  and about packets compose; C92 and C108 are invariants of all histories; C109 follows every path of `process` of the TLS client for the errors it can return;
  C117 adds the CONNECT and the CONNACK to the induction of C116 and ends where C111 begins; C119 composes C117 and C111; C110 is an induction over the turns of the application, with the unread data and the records that are to come as the invariant;
  C111 adds requests between the turns, which leave the receive side alone (`TxOnly`).
* C61–C63, C85–C87, C102 simulator: its registers against a memory, its status against the connections, its sends and receives against the queue of bytes; the operating system is a
  list of answers.
* C64: the generator's recurrence; full period by arithmetic modulo powers of two, for all seeds.

## What is modelled

| crate | modelled | not modelled |
| --- | --- | --- |
| `ll` | `lib.rs`, `net.rs` (`Eui48Addr`), `addr.rs`, `registers.rs`, `specifiers.rs`, `spi.rs`, `eh0.rs`, `eh0/*.rs`, `eh1.rs`, `eh1/*.rs` | `aio.rs`: its bodies are those of `lib.rs` with `.await`, compared as text, no difference; `Debug` of the register types, `defmt` |
| `hl` | `hostname.rs`, `io.rs`, `lib.rs`, `tcp.rs`, `udp.rs` | `Display`, `From<Error>` for `std::io` |
| `dns` | `header.rs`, `lib.rs`, `mdns.rs`, `qclass.rs`, `qtype.rs`, `rand.rs` | logging |
| `dhcp` | `lib.rs`, `pkt.rs`, `rand.rs` | logging |
| `sntp` | `lib.rs`, `timestamp.rs`, `fixed_point.rs` | the `chrono` and `time` crates: a date is a number of nanoseconds |
| `mqtt` | `client_id.rs`, `connect.rs`, `data.rs`, `fixed_header.rs`, `lib.rs`, `publish.rs`, `recv.rs`, `subscribe.rs`, `tls.rs` | `properties.rs` (12 lines of constants); logging |
| `tls` | all of `src` except: | `crypto/p256/cm4.rs`, the alternative P-256 backend (crate `p256-cm4`); the crates named above; logging |
| `regsim` | `lib.rs` | the operating system (a list of answers), logging, the corpus file |
| tests, examples, fuzz targets, `testsuite` | – | all |

Not expressible in this model: time and side channels, unsafe memory access inside other crates, and cancellation of asynchronous functions.

## Simplifications that matter

* Logging never fails and has no effect.
* A borrowed slice is modelled by its bytes.  Readers and writers borrow the chip, so that nothing else uses the bus while they exist;
  the environment still acts.
* The clock is an argument of each call, any `u32`.
* The random numbers of a call are an argument of that call.
* UTF-8 validation (`core::str::from_utf8`) is a definition of its own, `utf8Valid`, after the table in the Unicode standard; `C28_utf8` proves that it accepts
  exactly the encodings of lists of characters as Lean's library defines them.
* DHCP: sums of a pointer and a length that overflow `u16` are modelled as panics in any build; the option scan has the length of the packet as
  fuel.

## Disagreements between the code and its properties

Each of these is a theorem (or follows from one).

Low level: `Reg::try_from` refuses UIPR1–3 (C06).

UDP: `udp_send_if_free` returns the length of data that were not sent (C18).

DNS: a compression pointer that points to itself, or a cycle, is followed for ever (C29); `Qclass` masks seven bits instead of fifteen (C31);
a record whose data length is 0 although its type needs data leaves the stream at another place than the end of the record (C30); a response whose questions are cut off is never removed, so that every
later `response` fails until the next query (C114), and the multicast client takes such a datagram from anybody.

DHCP: the gateway is taken from option 54, the server identifier, not from option 3 (C66); when a lease has ended and DISCOVER cannot be sent, a lease of 0.0.0.0 is
reported (C35); packets that are rejected are never removed from the queue and hide all later ones (C39); an ACK without a lease time
prevents expiry (C37); `next_call` is too late when the clock has wrapped or the server's times are not in order (C38); the type of
a message is not checked while an OFFER is awaited (C74); with two servers on the network, the second OFFER stays in front of the ACK, which is
not seen before the timeout, when the client starts again (C101); for the same reason one stray packet makes a client lose its address at the end of the
lease although the server acknowledges its renewals (C106); the REQUEST that renews a lease has the form of an answer to an OFFER (C107). `dns()` and `ntp()` keep the servers of an
earlier lease after it has ended and when a later lease came without them (C115).

SNTP: a short datagram blocks the client for ever (C68); a fraction of all ones becomes the next second (C43); dates from 1900 to 1968 and after
2104 convert silently to other dates (C67); the fixed point divisor is 65535 (C69); `root_delay` is read as unsigned though the standard
allows negative values (C69_negative).

MQTT: a CONNACK of 128 bytes or more, and acknowledgements with 128 or more bytes of properties, leave bytes behind that are taken as a packet
(C47); the payload of a message with 128 or more bytes of properties begins with a part of the properties (C48_props_not); four continuation bytes stall the client (C70); an unexpected CONNACK does not reset the client, and the error repeats (C50); a CONNACK of fewer than two bytes reads its reason code from the next packet (C47_connack_short_not); `subscribe` with an empty filter uses up an
identifier and returns 0 (C46_empty_filter); a clock that goes backwards panics in a debug build (C73 excludes it).

MQTT over TLS: what is said above about packets holds here too (C91).  In addition, `is_connected` stays true after a disconnect (C92); after a timeout, a refused
connection or a CONNECT that did not fit into the transmit buffer, the client stays silent for ever although the documentation of `process` says that
calling it again re-initialises the client (C93); `publish` and `subscribe` send as soon as the TLS handshake is done, even before CONNECT
or after a refusal (C94); `process` takes one record and handles one packet in a call, so that records with many small packets fill the receive buffer,
and then the client ends the connection with `InternalError` (C110).

TLS, cryptography: `write_all` does not advance the sequence number, so that nonces are reused (C52); alerts use the same
nonce again (C52_alert_reuses_the_nonce); `update_traffic_secret` is not the one of RFC 8446, and both directions get the same key (C80); a KeyUpdate without a request
is ignored (C80); handshake records that are not encrypted are accepted in every state, KeyUpdate included (C82).

TLS, buffer: after wrapping, `len` and `hs_len` are one too small, so that one byte too many is accepted and all unread data are lost (C53);
`read_head` reads at `head` instead of `hs_head`, so that messages that share a record, or that follow unread application data, are taken
apart wrongly, or panic (C77).  A server that sends EncryptedExtensions and Finished in one record cannot be talked to.  A message that goes around the end of the
receive buffer is not handed out although it has arrived whole (`C77_message_around_the_end_waits`, `C77_second_ticket_waits`).

TLS, records: the advertised record size limit is compared with the length including tag and type, so that the largest records are refused
(C84); padded records are refused (C84); plaintext is appended before the tag is checked, and stays in the buffer, unreadable, after
`BadRecordMac` (C83 says that nothing of it is delivered); data of more than 65518 bytes
panic in `write_all` (C81).

TLS, alerts: every abort that the client sends is reported as a warning (C60); encrypted alerts are never reported (C88); the expected disconnect is reported as an
error and the unexpected one as an event (C99_awaited_disconnection, C99_after_disconnection).

TLS, parsing: trailing bytes and an overrunning last extension are accepted, and the pre-shared-key extension may appear twice (C58 states
exactly what is accepted).  A second CON interrupt without a reset makes a transcript of
two ClientHellos (hypothesis `ConWaits` of C59).

Simulator: SEND with wrapped pointers drops the byte at position 65535 (C61); RECV with wrapped pointers panics or stores the free size
(C62); some registers panic when written (C63); OPEN keeps the received size (C85); the free size is always 2048 (C86); data that do not
fit are cut, with the full length in the header (C87); CLOSE keeps the accepted stream, so that a socket accepts
no second client (C102); a peer that closes is not reported (C102); SENDOK is never raised (C102); the common interrupt register is stored
instead of cleared by ones (C63_common); DISCON and other commands panic (C102).

TLS: `Client::process` (`tls/src/lib.rs:393`) takes a failure to read the interrupt register for no interrupt.  The call goes on and can report success; a disconnect that was raised is not noticed in it (`C125_interrupts_failure_ignored`).

Multicast DNS: `mdns::Client::query` (`dns/src/mdns.rs:72-80`) writes the destination registers after the OPEN command, although the documentation of `SocketMode` (`ll/src/registers.rs:824-830`) and the data sheet ask for the group's address and port before it.  The first query after a reset opens the socket with 0.0.0.0 port 0.

## Trusted base

* Lean 4.33.0's kernel, and Mathlib's sources for the modules that are imported.
* Axioms: `propext`, `Classical.choice`, `Quot.sound`, and no others; the list below says which theorem uses which.  No theorem uses
  `sorryAx`, `Lean.ofReduceBool` or `Lean.trustCompiler`.
* The reading of the Rust code recorded in the citations, and the simplifications listed here and in the comments.
* The specifications in `lean/Verif/Spec/`: the chip, and the excerpts of FIPS-197, FIPS-180-4, SP 800-38D, RFC 1035, 2104, 2131, 2132, 4330,
  5869, 6066, 8446, 8449, of RFC 952 and 1123 for host names, and of MQTT 5.

## How the theorems were tested

`seeded/LOG.jsonl` has one line per wrong program: an edit of one definition of the model in a scratch copy, a full build, and the theorems
that failed.  A module that imports a failed one is not built, so the list of failed theorems can be incomplete.  Where an edit that survived led to
a new or stronger theorem, the line names it.

## Axioms of each theorem

No axiom (11 theorems): C01: blocks_distinct, datasheet_blocks; C06: datasheet_codes; C08: sizes, injective; C100: succeeds; C31: qtype_values, qclass_values; C65: chip_deselected, select_failure; C78: values.

`propext` (27 theorems): C01: sockets, bitmask; C04: setSnCr, setSnIr, setSnRxbufSize, setSnTxbufSize; C05: set_dest; C06: SocketStatus, SocketCommand, Protocol, BufferSize, Reg_false, Reg_witness, isRo; C07: flag_get_set, flag_frame; C115: times; C118: every_call; C28: ascii_is_utf8; C31: bytes, response_codes; C34: message_type_codes; C35: leased_ip; C38: clock_wrapped; C53: one_byte_too_many_is_accepted; C71: names; C76: bitmask.

`propext`, `Quot.sound` (146 theorems): C02: header_decodes, header_injective; C03: infallible_pin, infallible, transaction; C04: snSr, snRxbufSize, snTxbufSize; C05: reads; C06: SnReg, OperationMode, Reg_partial; C07: Mode_wolEnabled, Mode_pbEnabled, Mode_pppoeEnabled, Mode_farpEnabled, Mode_rst, Interrupt_conflict, Interrupt_unreach, Interrupt_pppoe, Interrupt_mp, PhyCfg_rst, PhyCfg_opmd, SocketMode_multiEnabled, SocketMode_mfenEnabled, SocketMode_bcastbEnabled, SocketMode_ndEnabled, SocketMode_mmbEnabled, SocketMode_ucastbEnabled, SocketMode_mip6bEnabled, SocketMode_mc, SocketInterrupt_con, SocketInterruptMask_con, SocketInterrupt_discon, SocketInterruptMask_discon, SocketInterrupt_recv, SocketInterruptMask_recv, SocketInterrupt_timeout, SocketInterruptMask_timeout, SocketInterrupt_sendok, SocketInterruptMask_sendok, SocketInterrupt_any, PhyCfg_status, PhyCfg_opmdc, PhyCfg_opmdc_frame, SocketMode_protocol, SocketMode_protocol_frame, defaults; C100: reset; C102: connect_partial, connect_refused, listen_partial, listen_refused, close, accept_partial, peer_close_unseen, second_listen_never_accepts, sendok_never_raised, missing_commands_panic; C109: writer; C11: write_alls_concat; C115: changes_partial, from_a_lease_partial, never_withdrawn, stale; C121: dns_query, mdns_query, dhcp_setup; C127: display, injective; C128: tcp, udp, streams, common, open; C129: sntp, mqtt_process, mqtt; C130: dns; C131: dhcp; C14: read_exact_all_or_nothing, write_all_all_or_nothing; C18: send_if_free_wrong_count_partial; C22: writes_own_blocks, others_unchanged; C24: failures_propagate; C25: would_block_unchanged; C27: nothing_waiting; C30: empty_data_partial, at_most_announced, then_none; C31: qtype_codes, qclass_wrong_mask_partial; C33: accessors; C35: failed_discover_keeps_lease; C37: expiry_missed, which_timer; C38: process, never_late_partial, not_early, times_out_of_order; C39: ack_not_seen; C43: next_second; C45: unambiguous; C46: ids; C47: connack_short_not; C49: connected, refused, stays; C50: partial, or_unchanged_partial; C61: send_partial, send_failure; C62: recv_partial, wrapped_recv; C63: readonly, missing_registers_panic, tx_buffer, rx_buffer, burst_write; C64: state, output, full_period; C65: infallible_pin; C66: gateway_is_server; C67: silent_error; C69: half; C71: reason_codes; C74: nak_taken_as_offer; C75: close; C77: messages_in_one_record_are_not_split, message_after_application_data_has_other_bytes, fragment_after_application_data_panics, unread_application_data_is_taken_as_a_message, second_ticket_waits; C78: codes_convert; C79: empty_hash; C85: open_partial, open_keeps_stale_bytes; C86: free_size_is_constant, free_size_is_wrong, free_size_partial; C87: datagram_partial, datagram_cut, stream_partial, stream_bytes_lost.

`propext`, `Classical.choice`, `Quot.sound` (337 theorems): C01: try_from; C03: read, write, read_all_drivers, write_all_drivers; C04: gar, subr, shar, sipr, mr, intlevel, ir, imr, sir, simr, rtr, rcr, ptimer, pmagic, phar, psid, pmru, uipr, uportr, phycfgr, version, snMr, snIr, snCr, snPort, snDhar, snDipr, snDport, snMssr, snTos, snTtl, snTxFsr, snTxRd, snTxWr, snRxRsr, snRxRd, snRxWr, snImr, snFrag, snKpalvtr, snDest, buffers, get_set, set_frame, noninterference; C09: tcp_reader_seek, writer_seek, udp_reader_seek, reader_stays_inside; C10: tcp_reader_is_cursor, udp_reader_is_cursor; C101: lease_partial, second_offer_starves; C103: session_partial, messages_partial; C104: connects; C105: session_partial; C106: keeps_partial, renewal, stray_packet; C107: selecting_partial, renewing; C108: ids; C109: not_connected, connection, alert_partial, silent_server; C11: writer_is_image, udp_send_to; C110: session_partial, arrived_partial, burst_not; C111: session_partial; C112: session; C113: lookup, mdns; C114: blocked, removed_partial; C115: ack_partial; C116: handshake_polls; C117: connects; C118: asks_again, from_the_start, called_when_asked; C119: whole_partial; C12: reads_in_order, tcp_read, open_establishes; C120: configured, group_not, group_partial; C121: dns_response, dns_records, sntp, dhcp_process, mqtt_process, mqtt_send, mqtt_message; C122: process_never_panics_partial, error_gives_up, write_all_panics_iff; C123: dns, sntp, dhcp, mqtt_process, mqtt, tls_process, tls_data, mqtt_tls; C124: dns, sntp, dhcp, mqtt; C125: process_partial, data, mqtt_tls_partial, interrupts_failure_ignored; C126: tls_writer, mqtt_tls_send, mqtt_tls_process, mqtt_tls_before_data, mqtt_tls_message; C13: tcp_write, writes_in_order; C132: tls; C133: Mode, Interrupt, SocketInterrupt, SocketInterruptMask, PhyCfg, SocketMode, SocketMode_injective; C15: udp_recv_from, empty_would_block, datagrams_in_order; C16: peek_from, peek_contents, peek_header; C17: udp_reader, udp_reader_succeeds; C18: send_if_free_partial, all_or_nothing_partial, send_to_if_free_partial, send_to_all_or_nothing_partial; C19: udp_send_to; C20: new_accepts_exactly, try_from_accepts_exactly, len_and_labels; C21: constructors_agree; C23: port_unique_exact, check_used; C25: would_block; C26: query, a_question, bind_error, mdns; C27: questions_skipped, not_a_response, response, success, header_fields; C28: read_name, utf8, utf8_string; C29: self_pointer_never_returns_partial, returns_within_length_partial, no_pointers_partial, valid_names_partial, response_never_returns_partial; C30: well_formed_response, record_partial, valid_record, records_of_datagram; C31: qclass_partial, qclass_small_partial; C32: send_discover, send_request; C33: lookup, history_independent; C34: ipv4, u32, message_type; C35: address_register, setup, discover_partial; C36: foreign_xid; C37: bound, unanswered_partial, ack; C39: rejected_packet_stays, handled_removed_partial; C40: reply, only_valid; C41: request, setup_request; C42: round_trip; C43: within_second_partial, accuracy; C44: encode, encode_large, decode, decode_error, round_trip; C45: publish, subscribe, unsubscribe, connect; C46: empty_filter; C47: connack_partial, connack_long_not, suback_partial, unsuback_partial, suback_props_not, ignored, incomplete, interrupted; C48: publish_partial, props_not; C49: connack; C50: not; C51: client_id; C52: alert_reuses_the_nonce, writer_nonces_partial, write_all_reuses_the_nonce; C53: receive_buffer_is_a_queue_partial; C54: encrypt, decrypt, inverse, limit; C55: aes128; C56: ghash; C57: client_hello; C58: server_hello_accepted_iff, server_hello_parse_ends, encrypted_extensions_accepted_iff; C59: no_missing_key, authenticated, handshake, error_disconnects; C60: aborts_are_reported_as_warnings, forgery_partial; C61: wrapped_send_drops_a_byte, udp_send_to_partial, udp_send_to_drops_a_byte; C63: common, mode, socket, interrupts, burst_read, interrupts_reached; C64: every_state_reached; C66: registers_partial; C67: conversion_partial; C68: removed_partial, short_blocks; C69: fixed_point_partial, negative; C70: not, partial; C72: link_down, link_up; C73: state_timeout; C74: offer_partial; C75: state_queries, disconnect, local_addr; C76: other_interrupts_are_kept; C77: fragmented_messages_are_reassembled_partial, message_around_the_end_waits; C79: binder, key_schedule, key_and_nonce, nonces_differ; C80: key_update_is_not_the_standard, key_update_is_ignored; C81: writer, write_all, write_all_refused; C82: plaintext_handshake_is_accepted, plaintext_key_update_is_accepted; C83: delivery, forgery, authenticity, stream; C84: padding_is_refused, size_limit_is_too_strict; C88: plain_alert_partial, encrypted_alerts_are_not_reported; C89: handshake_completes; C90: publish, subscribe, unsubscribe, empty_filter, connect, session; C91: connack_partial, connack_long_not, suback_partial, unsuback_partial, suback_props_not, ignored, incomplete, publish, unexpected_connack_not, malformed_not, malformed_partial, record; C92: disconnect_not, partial; C93: disconnection_partial, silent_server_partial, abort_partial, timeout_not, refused_not, full_not, malformed_not; C94: not, partial; C95: configured, opens; C96: mqtt, tls; C97: waits; C98: between_plain, between_protected, ccs_dropped, ccs_refused; C99: disconnects_and_retries, silent_server, after_abort, after_disconnection, awaited_disconnection.

