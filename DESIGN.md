# Formal model of PyTCP in Lean 4 - design

The subject is `ccie18643/PyTCP` (source in `/repo`, read as text, never run).
`/verif/lean/Verif` holds the model (`Model/`), small specifications that do not
mention the model (`Spec/`), helper lemmas (`Lemmas/`) and the property theorems
(`Props/`), one file per property group.

## How the code is modelled

* **Bytes** (`bytes`, `bytearray`, `memoryview`) are `List UInt8`; Python slices are
  `take`/`drop` (they never raise); `frame[i]` is `idx`, which returns
  `Except.error .indexError` outside the list; `struct.unpack` of a slice of the wrong
  size returns `.structError`; `assert` returns `.assertionError`.
  Exceptions are values (`Except PyErr _`), so "never raises" is a statement about the result.
* **Python ints** are `Nat` (or `Int` where the code can go negative).
  `>>`, `<<`, `&`, `|`, `~ ... & mask` are written literally with Lean's Nat operators.
* **Addresses** (`MacAddress`, `Ip4Address`, `Ip6Address`) are structures holding the integer
  together with its range, as established by the constructors, which are modelled separately
  and return errors for rejected arguments.
* **Stateful code** is `step : State -> Op -> State x Out`; loops are structural recursion
  (fuel only where the real loop may diverge, and then divergence is the finding).
* **Time** is an input (`Nat` clock readings), **random numbers** and the peer's
  packets are inputs, so theorems quantify over all of them.
* **Threads**: the RX thread, the timer thread and application threads are modelled as an arbitrary
  interleaving of atomic handler executions (one whole handler per step).
  For TCP sessions `Model/Preempt.lean` drops that simplification: the application's threads run between
  any two steps of `tcp_fsm` (C96), which itself runs under the session's lock `_lock_fsm`.
* Logging and `__debug__` blocks are not modelled.

## Trusted base

* The Lean 4.33.0 kernel.  Every theorem in MANIFEST.json depends on no other axioms than `propext`, `Classical.choice` and
  `Quot.sound`.  `tools/axioms.sh` prints the axioms of all of them and fails on any other; it is run before every commit.  There is
  no `sorry`, no `native_decide`, no `bv_decide` and no axiom of our own.
* The faithfulness of the hand-written model; every definition cites file and lines in `/repo`, and says where it simplifies.
* Python semantics assumed: `struct` big-endian codecs, slicing, dict insertion order, `sorted`, unbounded ints, `re` matching as
  transcribed, `socket.inet_aton`/`inet_ntoa`, UTF-8 as in Lean's library.

## Properties: what is modelled and how each is proved

All properties can be expressed in the model.  "partial" means that part of the claim is false of the code (a witness theorem says how) or missing; the
note in MANIFEST.json says which.

| id | property | modelled | proof | status |
|---|---|---|---|---|
| C01 | Checksum verification is exact | `inet_cksum` (Model/Cksum) | the accumulator is congruent to the RFC 1071 sum modulo 0xFFFF and zero only if all words are (induction over words); verification is exact | proved |
| C02 | Checksum generation is self-consistent | as C01 | false in general (the last fold loses a carry): witnesses, and the exact condition under which the stored checksum verifies | partial |
| C03 | Any single corrupted bit is detected | as C01 | changing one byte changes the sum modulo 0xFFFF | proved |
| C04 | MAC address conversions are lossless | constructors and conversions of the address classes (Model/Addr, Model/AddrText) | round trips by arithmetic on big-endian digits; text forms by induction over the digits | proved |
| C05 | IPv4 address conversions are lossless | constructors and conversions of the address classes (Model/Addr, Model/AddrText) | round trips by arithmetic on big-endian digits; text forms by induction over the digits | proved |
| C06 | IPv6 address conversions are lossless | constructors and conversions of the address classes (Model/Addr, Model/AddrText) | round trips by arithmetic on big-endian digits; text forms by induction over the digits | proved |
| C07 | MAC classification is exact | classification properties (Model/Addr) | each bit test equals the textbook range (Spec/Addr); C08 is false for "reserved" (witness) | proved |
| C08 | IPv4 classification is exact | classification properties (Model/Addr) | each bit test equals the textbook range (Spec/Addr); C08 is false for "reserved" (witness) | partial |
| C09 | IPv6 classification is exact | classification properties (Model/Addr) | each bit test equals the textbook range (Spec/Addr); C08 is false for "reserved" (witness) | proved |
| C10 | Masks are exactly the contiguous-prefix bit patterns | masks, networks, hosts, gateway setters (Model/Addr, Model/Net) | masks are exactly the prefix patterns; membership is equality of the leading bits; setters stated outright | proved |
| C11 | Network membership is prefix matching | masks, networks, hosts, gateway setters (Model/Addr, Model/Net) | masks are exactly the prefix patterns; membership is equality of the leading bits; setters stated outright | proved |
| C12 | Host and gateway configuration is always consistent | masks, networks, hosts, gateway setters (Model/Addr, Model/Net) | masks are exactly the prefix patterns; membership is equality of the leading bits; setters stated outright | proved |
| C13 | Multicast MAC, solicited-node and EUI-64 mappings | multicast MAC, solicited-node, EUI-64 (Model/Addr, Model/Net) | bit arithmetic, for every address | proved |
| C14 | Ethernet frames round-trip | Ethernet and ARP assembler and parser (Model/Ether, Model/Arp) | round trip and converse (what an accepted frame looks like) | proved |
| C15 | ARP packets round-trip | Ethernet and ARP assembler and parser (Model/Ether, Model/Arp) | round trip and converse (what an accepted frame looks like) | proved |
| C16 | IPv4 packets round-trip | IPv4 assembler and parser (Model/Ip4) | round trip for every header whose checksum verifies; option walk by induction | partial |
| C17 | IPv6 packets round-trip | IPv6 and fragment header codec (Model/Ip6) | exact values that come back; false for DSCP (witness) | partial |
| C18 | UDP datagrams round-trip | UDP codec (Model/Udp) | round trip and converse | proved |
| C19 | TCP segments round-trip | TCP codec (Model/Tcp) | round trip with induction over options; what an accepted segment satisfies | proved |
| C20 | ICMPv4 messages round-trip | ICMP codecs (Model/Icmp4, Model/Icmp6) | round trip per message type, options by induction; witnesses for the code's defects | partial |
| C21 | ICMPv6 messages round-trip | ICMP codecs (Model/Icmp4, Model/Icmp6) | round trip per message type, options by induction; witnesses for the code's defects | partial |
| C22 | Parsers never crash on hostile input | all parsers | no exception for any byte string, or the exact patterns that raise (witnesses) | proved |
| C23 | IPv4 parser never crashes on hostile input | all parsers | no exception for any byte string, or the exact patterns that raise (witnesses) | partial |
| C24 | TCP parser never crashes on hostile input | all parsers | no exception for any byte string, or the exact patterns that raise (witnesses) | partial |
| C25 | ICMPv6 parser never crashes on hostile input | all parsers | no exception for any byte string, or the exact patterns that raise (witnesses) | partial |
| C26 | Accepted IP packets are well formed | IP parsers | every field condition of an accepted packet | partial |
| C27 | IPv4 fragmentation is a faithful partition | fragmentation (Model/Tx) | induction over fragments: contiguous, disjoint, multiples of 8, all but the last have MF, payload equals the concatenation, each fits the MTU | proved |
| C28 | IPv6 fragmentation is a faithful partition | fragmentation (Model/Tx) | induction over fragments: contiguous, disjoint, multiples of 8, all but the last have MF, payload equals the concatenation, each fits the MTU | proved |
| C29 | IPv4 reassembly is order independent | reassembly (Model/Frag) | the stored flow after any history of fragments (invariant, snoc induction) against a specification on the history alone (Spec/Frag) | proved |
| C30 | IPv6 reassembly is order independent | reassembly (Model/Frag) | the stored flow after any history of fragments (invariant, snoc induction) against a specification on the history alone (Spec/Frag) | proved |
| C31 | Reassembly never crashes on hostile fragments | reassembly | false of the code; witnesses, and theorems for what does hold | partial |
| C32 | Stale fragments are discarded | reassembly | false of the code; witnesses, and theorems for what does hold | partial |
| C33 | IPv4 source addresses are always owned | source validation and choice (Model/Tx) | decision logic stated against "first host whose network contains / that has a gateway" | proved |
| C34 | IPv6 source addresses are always owned | source validation and choice (Model/Tx) | decision logic stated against "first host whose network contains / that has a gateway" | proved |
| C35 | Link-layer next hop is right | link-layer destination (Model/Tx) | decision logic stated outright | proved |
| C36 | Packets for other hosts have no effect | receive handlers (Model/Rx) | exact effects of every accepted frame, and the converse: no other frame has such an effect | proved |
| C37 | ARP behaviour | receive handlers (Model/Rx) | exact effects of every accepted frame, and the converse: no other frame has such an effect | partial |
| C38 | Neighbour discovery behaviour | receive handlers (Model/Rx) | exact effects of every accepted frame, and the converse: no other frame has such an effect | proved |
| C39 | Ping is answered faithfully | receive handlers (Model/Rx) | exact effects of every accepted frame, and the converse: no other frame has such an effect | proved |
| C40 | ARP cache is a map with expiry | neighbour caches (Model/Cache) | after any history a lookup gives what the history says (Spec/Cache) | proved |
| C41 | ND cache is a map with expiry | neighbour caches (Model/Cache) | after any history a lookup gives what the history says (Spec/Cache) | proved |
| C42 | Timers expire after exactly their timeout | timer (Model/Timer) | after any history a timer has expired iff ...; a task runs at exactly the specified ticks (Spec/Timer) | proved |
| C43 | Scheduled tasks run at the specified ticks | timer (Model/Timer) | after any history a timer has expired iff ...; a task runs at exactly the specified ticks (Spec/Timer) | proved |
| C44 | Frame queues are FIFO and lossless | rings and trackers (Model/Ring) | refinement to a queue; serials are the number of trackers modulo 65536 | proved |
| C45 | Ephemeral port selection | sockets (Model/Socket) | invariants over all histories of socket calls (Spec/Socket) | proved |
| C46 | Bind exclusivity | sockets (Model/Socket) | invariants over all histories of socket calls (Spec/Socket) | proved |
| C47 | UDP delivery picks the most specific socket | sockets (Model/Socket) | invariants over all histories of socket calls (Spec/Socket) | proved |
| C48 | UDP receive is FIFO | sockets (Model/Socket) | invariants over all histories of socket calls (Spec/Socket) | proved |
| C49 | ICMP unreachable surfaces exactly once | sockets (Model/Socket) | invariants over all histories of socket calls (Spec/Socket) | proved |
| C50 | ICMP unreachable reaches the right socket | receive handlers (Model/Rx) | exact effects of every accepted frame, and the converse: no other frame has such an effect | proved |
| C51 | TCP send accepts data only when it can be delivered | one TCP session (Model/Session) | invariants over all histories of segments, calls, clock ticks and timer runs (Spec/Session); where the code is wrong, a concrete history is the witness and the theorem carries the hypothesis that excludes it | proved |
| C52 | TCP receive is an in-order, loss-free, duplicate-free byte stream | one TCP session (Model/Session) | invariants over all histories of segments, calls, clock ticks and timer runs (Spec/Session); where the code is wrong, a concrete history is the witness and the theorem carries the hypothesis that excludes it | proved |
| C53 | TCP transmits exactly the application's bytes | one TCP session (Model/Session) | invariants over all histories of segments, calls, clock ticks and timer runs (Spec/Session); where the code is wrong, a concrete history is the witness and the theorem carries the hypothesis that excludes it | partial |
| C54 | TCP connection states follow the protocol | one TCP session (Model/Session) | invariants over all histories of segments, calls, clock ticks and timer runs (Spec/Session); where the code is wrong, a concrete history is the witness and the theorem carries the hypothesis that excludes it | partial |
| C55 | Closed sessions are gone | one TCP session (Model/Session) | invariants over all histories of segments, calls, clock ticks and timer runs (Spec/Session); where the code is wrong, a concrete history is the witness and the theorem carries the hypothesis that excludes it | partial |
| C56 | Retransmission is bounded | one TCP session (Model/Session) | invariants over all histories of segments, calls, clock ticks and timer runs (Spec/Session); where the code is wrong, a concrete history is the witness and the theorem carries the hypothesis that excludes it | partial |
| C57 | Flow control is respected | one TCP session (Model/Session) | invariants over all histories of segments, calls, clock ticks and timer runs (Spec/Session); where the code is wrong, a concrete history is the witness and the theorem carries the hypothesis that excludes it | partial |
| C58 | Received data is acknowledged | one TCP session (Model/Session) | invariants over all histories of segments, calls, clock ticks and timer runs (Spec/Session); where the code is wrong, a concrete history is the witness and the theorem carries the hypothesis that excludes it | partial |
| C59 | End of stream | one TCP session (Model/Session) | invariants over all histories of segments, calls, clock ticks and timer runs (Spec/Session); where the code is wrong, a concrete history is the witness and the theorem carries the hypothesis that excludes it | partial |
| C60 | Resets are honoured only when plausible | one TCP session (Model/Session) | invariants over all histories of segments, calls, clock ticks and timer runs (Spec/Session); where the code is wrong, a concrete history is the witness and the theorem carries the hypothesis that excludes it | proved |
| C61 | Listening sockets accept connections in order | all TCP sockets and sessions (Model/TcpStack) | invariant over all histories; the sessions of a stack are projected to single-session histories, so that the session theorems apply to each | partial |
| C62 | TCP works across sequence wrap | one TCP session (Model/Session) | invariants over all histories of segments, calls, clock ticks and timer runs (Spec/Session); where the code is wrong, a concrete history is the witness and the theorem carries the hypothesis that excludes it | partial |
| C63 | Segments to closed ports are reset | receive handlers (Model/Rx) | exact effects of every accepted frame, and the converse: no other frame has such an effect | partial |
| C64 | Multicast membership matches the address list | addresses and start-up (Model/Addrs) | for every schedule of what the receive thread hears | proved |
| C65 | Addresses are claimed only if free | addresses and start-up (Model/Addrs) | for every schedule of what the receive thread hears | partial |
| C66 | DHCP messages round-trip | DHCP messages and client (Model/Dhcp) | round trip by induction over options; divergence of the option loop proved for every fuel; exact results of the client | partial |
| C67 | DHCP parsing terminates | DHCP messages and client (Model/Dhcp) | round trip by induction over options; divergence of the option loop proved for every fuel; exact results of the client | partial |
| C68 | DHCP client lease handling | DHCP messages and client (Model/Dhcp) | round trip by induction over options; divergence of the option loop proved for every fuel; exact results of the client | proved |
| C69 | Fragmented send reports the worst outcome | status of a fragmented send (Model/Tx) | the worst status in the order of the code | proved |
| C70 | UDP end to end | two stacks (Model/Wire with everything above) | the frames of a send, arriving in any order, any number of times and mixed with other frames, deliver the datagram | partial |
| C71 | IPv4 identification does not run out | identification counter (Model/Tx) | false of the code: after 65535 fragmented sends every further one raises, for every sequence of sends | partial |
| C72 | Local address choice | source validation and choice (Model/Tx) | decision logic stated against "first host whose network contains / that has a gateway" | proved |
| C73 | Packet tracker serials | rings and trackers (Model/Ring) | refinement to a queue; serials are the number of trackers modulo 65536 | proved |
| C74 | Accepted TCP segments are well formed | TCP codec (Model/Tcp) | round trip with induction over options; what an accepted segment satisfies | proved |
| C75 | Handling a TCP event always ends | one TCP session (Model/Session) | invariants over all histories of segments, calls, clock ticks and timer runs (Spec/Session); where the code is wrong, a concrete history is the witness and the theorem carries the hypothesis that excludes it | proved |
| C76 | Start-up configures the advertised addresses | addresses and start-up (Model/Addrs) | for every schedule of what the receive thread hears | partial |
| C77 | Networks, hosts and masks in text | text of masks, networks and hosts, str_to_ip, ip_version (Model/AddrText) | the regular expressions as sets of matches; glibc inet_aton, inet_pton, inet_ntop as loops; inverse of printing by induction over digits and groups | proved |
| C78 | Received TCP segments reach their connection unaltered | Ethernet, IPv4/IPv6 and TCP parsers and the TCP handler, on bytes (Spec/Wire.lean says what the bytes mean) | the parsers accept what the RFCs describe and report its fields (induction over options), then the match over the registered sockets | proved |
| C79 | connect succeeds exactly when the peer can be addressed | connect, sendto and the choice of address and port (Model/Socket) | case analysis on an invariant over all histories of socket calls | proved |
| C80 | Sockets are given only what the network brought | the receive path from the frame to the sockets (Model/Rx, Frag, parsers) | invariant over all sequences of frames on the stored fragments (each byte was in a frame at its place), soundness of the parsers | proved |
| C81 | A TCP connection between two hosts carries the byte streams intact | two sessions (Model/Session) and a network that delivers only what was sent (Spec/Net) | joint induction over both ends: acknowledgements are above the SYN if SYNs are numbered right and conversely; then C52 and C53 at each end, with the stream the other end has accepted | proved |
| C82 | Routers are told of the multicast groups | listener reports (Model/Addrs) | invariant of C64 and what each operation sends; induction over histories without removals; concrete witness for removals | partial |
| C83 | TCP segments on the wire | sessions (Model/Session), the transmit path down to the bytes of the frame (Model/Tx, Wire, codecs) and the receive path | invariant on everything a session sends (Lemmas/SessionWire), the fields by their place in the bytes, then C78 at the receiver | partial |
| C84 | One connection among many carries its byte streams intact | two stacks of sockets and sessions (Model/TcpStack) and the network between them (Spec/Hosts) | every session of a stack is a run of a single session (C61); a session that has not yet been opened cannot have sent, so the joint history of the two sessions is one of C81 (joined_hosts), and the theorems of C81 apply | proved |
| C85 | Over a working network connections are set up and data arrive in time | two sessions (Model/Session), the segments under way with their times, the clock (Spec/Live) | an invariant with a stage for each step of the handshake and one for the open connection (Lemmas/LiveInv): what is under way, when it was sent, which timers run; then rounds of at most 2*d+104 ms, each of which acknowledges a full segment or everything (Lemmas/LiveTime) | proved |
| C86 | The loss of a segment is made good | sessions (Model/Session) | transmission count and timers (C56); the sender left alone, the receiver that ignores what it has seen (Lemmas/LostAck); the negation is proved for every such state | partial |
| C87 | Packet statistics account for every received packet | the receive handlers once more, with the counters they increase (Model/Stats); the kinds of actions and the balance sheet (Spec/Stats) | erasing the counters gives the handlers of Model/Rx; each protocol handler has finitely many pairs of counters and kinds of actions (Lemmas/StatsOut), on which the equations are checked; they are kept under concatenation, so induction over the layers and the history | partial |
| C88 | What a host puts on the wire because of a frame or a call | a host: the receive handlers (Model/Rx) and the transmit functions with its own caches (Model/Host) | what the handlers decide (C37, C38, C39, C47, C50, C78 on bytes) composed with what the transmit functions put on the wire (Lemmas/HostWire, HostWire6); the transmit functions of a host are those of Model/Tx with the answers of its caches (Lemmas/Host) | proved |
| C89 | Two hosts on a link find each other and exchange datagrams | two hosts (Model/Host); a frame queued by one is received by the other | composition of the theorems of C88: the bytes one host sends meet the hypotheses about the bytes the other receives | partial |
| C90 | A datagram received from another machine is one that it sent | a whole machine: the packet handler with its caches and all TCP sockets and sessions (Model/Machine); two of them and an Ethernet that carries bytes (Spec/Machine) | every frame on the wire of a machine that says it is from its address carries a whole packet or a piece of one that it was told to send, each identification belonging to one packet (invariant over all events, Lemmas/Machine); what a reassembled packet is made of (C80) is then a packet of that machine (Lemmas/Genuine) | proved |
| C91 | A TCP connection between two machines is a reliable byte stream, down to the frames | as C90 | as C90, for segments: every segment a session takes is one that the session at the other end has sent, so the history of the TCP parts is one of C84 | proved |
| C92 | Packet statistics account for every packet sent | the transmit functions once more, with the counters they increase (Model/StatsTx); the balance sheet, the counter of each status, and when the counters for addresses are to be increased (Spec/StatsTx) | erasing the counters gives the transmit functions of the other properties; every equation between counters is a linear function of the list of counters, and its value is computed for each function from those of the functions it calls (Lemmas/StatsTx), for fragments by induction; then induction over the history | proved |
| C93 | Over a working network connections are closed in time | as C85, with `close` (Spec/Release) | until the transmit buffer is empty the link does what it would have done without the close (Lemmas/ReleaseDrain: the flag commutes with every event), so C85 bounds the time; when it is empty nothing is under way and both ends have everything; from there an invariant with eleven phases says which segments are under way, since when, and which timers run (Lemmas/Release, Lemmas/ReleaseNet) | proved |
| C94 | A lost segment is made good before a timer runs out | as C53 and C81; what is ahead, what asks again, segments in a row (Spec/Recover) | a request is counted for the number expected only while a segment from further on is kept (invariant over all histories, Lemmas/Recover), so the counter is zero when there is no gap; then the steps of an open session, by induction over the segments that arrive ahead and over those kept behind the gap | partial |
| C95 | A stack gets the configuration its user asked for | the constructor and `start` (Model/Init) over the start-up of C65 and C76, the DHCP client of C68 and the texts of C77; the wish of a user and the gateways that make sense (Spec/Init) | the texts are read back as the wish (C77); the IPv6 part of start-up leaves the IPv4 part alone and the other way round (Lemmas/Init); then C65 and C76 for each kind of address | partial |
| C96 | Thread switches do not matter | Model/Preempt.lean: a run of tcp_fsm as a program of steps, none of which touches more than one thing shared with the application (the buffers, the semaphores, the state, the connection error); before each step the application makes any number of steps of any number of calls of send, receive and connect. | Lemmas/Preempt.lean: without interruption the programs are the functions of Model/Session.lean, and they do not depend on what receive and connect change. Lemmas/PreemptWeave.lean: buffers put during a run commute with the rest of it, to before the run (timer method) or after it (segments). Lemmas/PreemptSim.lean: simulation by induction over the history. Lemmas/PreemptWake.lean: every append to the receive buffer is followed by a release. Lemmas/PreemptConn.lean: a connection that was never established has its error noted before the semaphore of connect is released. C96_send_race by evaluation of a history. | partial |
| C97 | Timers and thread switches | Model/TimerThread.lean: the timer thread as a machine with a place for each access to the shared dict and list; registrations in two steps (the attribute is read, the object is changed). | Lemmas/TimerThread.lean: for one timer, an invariant with a case for each place of the thread (how often it was counted down, whether it is in the dict under construction); for one task, the same, with the ticks of C43; a dict that has grown since the loop began can only end the thread; a task outside the list under construction never comes back. | partial |
| C98 | Packets sent in fragments by several threads | Model/Senders.lean: the two functions that send in fragments, cut at every access to the shared counters; any number of calls under way | Lemmas/Senders.lean: what each call has queued is an initial part of its fragments; with the counter raised in one step, two calls that used one identification were under way together, since the second to raise the counter found the first still sending (invariant over the highest identification used). Lemmas/SendersGenuine.lean: so, per destination, an identification determines the datagram, and the argument of C80 and C90 applies to what a receiver puts together. Witnesses by evaluation of histories, with the receiver of C70 | partial |
| C99 | Sockets used by several threads | Model/Threads.lean: bind, connect, sendto, recv, recvfrom and the receive thread cut at every access to stack.sockets, the queue and the semaphore of a socket; any number of calls under way | Lemmas/Threads.lean: invariant for each socket: value of the semaphore + calls past it + (1 if a datagram is not announced yet) = length of the queue, and what was queued = what was returned ++ the queue; for the lookup, an invariant over the history that records at which moment each id was looked up. Lemmas/ThreadsAlone.lean: a function that gives what a call will come to from where it is, unchanged by each of its own steps and by those that only touch queues. Witnesses by evaluation of histories | partial |
| C100 | Neighbour caches used by several threads | Model/CacheThreads.lean: find_entry, add_entry and the maintenance thread of the ARP and neighbour caches, cut at every access to the dict, to an entry and to the clock; generic in the type of addresses | Lemmas/CacheThreads.lean: invariant: the dict is what the history of additions and removals says, and every address the maintenance thread has still to look up in this round is in the dict (nobody else removes), so no KeyError; MAC addresses of entries never change, so a lookup returns what it found; for removal, an invariant over the current visit: the clock reading and the age judged | partial |
| C101 | Frame queues, thread switches, start and stop | Model/RingThreads.lean: enqueue, the loop of the transmit thread and of the packet handler (dequeue), start and stop, cut at every access to the list, the semaphore and the flag; any number of threads; generic in the type of frames | Lemmas/RingThreads.lean: taken ++ waiting = put for all histories; with one thread at a time: dealt with ++ held = taken and the list is not empty between test and pop; a measure (5 per frame + place in the round) that each step of the thread lowers; for stop, the steps and frames a thread has left | partial |
| C102 | The UDP echo service | Model/Echo.lean: the answer (strip, lower, the three pictures), a round of the loop (recvfrom, sendto on the host of Model/Host.lean), the start of the service; events: a frame is handled, the service runs, the caches change; a record of what was handed to the socket and of what was answered | Lemmas/Echo.lean: no handler and no sending function touches a socket queue but the delivery of a datagram; invariant: answered = a prefix of the requests, the rest waits; packets that fit are sent without an exception; Props/Echo.lean: one answer via C88 and C72, the round trip via C88_datagram | partial |
| C103 | The TCP echo service | Model/TcpEcho.lean: the thread of service as a program counter with one call on the session per turn, receive in two parts; Spec/TcpEcho.lean: client, network, stack and thread in any order (Served) | Lemmas/TcpEcho.lean: every such run is a run of the two ends of C81; invariant over the program counter: accepted = greeting and replies to what was read; for the end: EofInv of C59 carried along with the program counter, and once the FIN is taken nothing more is accepted at the client; Props/TcpEcho.lean: the theorems through C81, and concrete schedules as witnesses | partial |
| C104 | Two hosts with the same address | Model/Boot.lean: start-up of one candidate with the receive thread on frames (Model/Rx.lean, Model/Host.lean): join, note, ask, wait, leave, assign; the frames handled before each step are an arbitrary schedule; the ARP probe | Lemmas/Boot.lean: what the receive handlers leave alone (Later); bytes of a message to a group; source selection; the wait ends with the event if a frame raises it; Props/Boot.lean: question, answer (C38 on bytes) and detection as a chain; the event is raised by advertisements of the candidate only (C38_wire_only); concrete exchanges as witnesses | partial |
| C105 | The TCP echo service and all its clients | Model/TcpService.lean: the host with all its sockets and sessions (Model/TcpStack.lean), the thread that makes the socket, binds, listens and accepts, and the threads of the connections (Model/TcpEcho.lean), each with one call per step; Spec/TcpService.lean: histories of this host and of a client host, with the network between them (Clients) | Lemmas/TcpService.lean: how sockets, sessions and parents change in a step (shape); a connection that came in through the listening socket keeps its socket, session and thread (kids_step, stable, one_thread, threads_step); projection of such a history to a run of one connection (served: Served of C103, with one_step of C84); Props/TcpService.lean: C103 through it, and a concrete history after stop | partial |
| C106 | Exactly the messages that are in order are accepted | Model/{Arp,Udp,Icmp4,Icmp6}.lean, as for C16-C25; Spec/Accept.lean: the messages in order, from the RFCs | Props/Accept.lean: case split on the message type; the record walk of a multicast report by induction on the number of records; the pseudo-header sums through C01 | partial |
| C107 | Exactly the frames, packets and segments that are in order are accepted | Model/{Ether,Ip4,Ip6,Tcp}.lean, as for C14-C24; Spec/AcceptIp.lean: what is in order, from the RFCs, and the option walk of the code as an inductive relation on bytes | Props/AcceptIp.lean: the option walk by induction on its fuel, equivalent to the relation; the other conditions by case split | partial |
| C108 | Names of sockets and timers tell them apart | the names as texts (`Model/Names.lean`): `str` of sockets, sessions, segments and datagrams, the names of timers | address texts are injective (C05, C06) and have no `/`, an IPv6 text has a `:` and an IPv4 text none, numbers have no `-`; so a name can be taken apart from the left; simulation of the shared timers by the timers of a session alone over all histories | proved |
| C109 | Equality and hashes of addresses | `repr`, `==` and `hash` of the address classes (`Model/AddrObj.lean`) | the texts are injective for each sort (C04, C05, C06, C77), and the names before the parenthesis differ between sorts | proved |
| C110 | No frame ends the receive thread | nothing new: every receive handler (`Model/Rx.lean`, `Model/Host.lean`) with its exceptions; `Spec/Deaf.lean` lists the frames by their bytes | each parser and handler is total off the listed frames (bounds of every read from the lengths checked), and what it asks to be sent fits the MTU (C40, C41), so that sending raises nothing; the converse for short and for overrunning TCP segments by running the handler on them | partial |
| C111 | Exactly which texts are IPv6 addresses | nothing new: the constructor from text, the regular expression and `inet_pton` (`Model/AddrText.lean`); `Spec/AddrForms.lean` gives the forms of RFC 4291 as inductive relations between texts and bytes | the loop of `inet_pton` accepts a text with certain bytes exactly if the relation holds (each branch sound by induction on the length of the text, complete by induction on the relation); the regular expression finds a match in all of them with `::` or eight groups, and every match of it holds `::` or seven colons | partial |
| C112 | The UDP daytime and discard services | Model/Daytime.lean: the text of a datetime, a round of the loop of both services, events as in Model/Echo.lean, with what the clock says at each of them; for the discard service a record of all frames that the host sends | Lemmas/Daytime.lean: digits written and read back, invariant as for C102; Lemmas/Discard.lean: every sending function and every receive handler commutes with a change of what waits in the sockets (the table of sockets stays), so that the runs with and without the service go in parallel; the rest as for C102 | partial |
| C113 | Exactly which texts are IPv4 addresses | nothing new: the constructor from text, the regular expression and `inet_aton` with `strtoul` (`Model/AddrText.lean`) | every match of the regular expression holds three dots; `inet_aton`, on a text without white space and leading zeros, accepts only numbers with dots between them, by induction on the dots still allowed (the digits read are the decimal text of the value read) | partial |
| C114 | The TCP discard and daytime services | Model/TcpServices.lean: the threads of both services, on a session as in Model/TcpEcho.lean; for the daytime service each turn is given what `_run_thread` and the clock say | the invariants of C103 for the other threads: what has been given to `send`, with what has been read (or the times of the messages) and where the thread is; what the client gets by C81 | partial |
| C115 | The ICMP echo client | Model/Ping.lean: the loop of the client, with `send_icmp4_packet` and `send_icmp6_packet` on a host as in Model/Host.lean, frames and cache changes in between; each turn is given what `_run_thread` and the clock say | an invariant on sequence number, count and messages over all histories; the frame by the lemmas of C88, with the source by the rules of C72; the end after 65536 messages by induction on the turns | partial |
| C116 | The TCP echo client | Model/TcpClient.lean: the thread of the client from the wait in `connect` to `close`, on a session as in Model/Session.lean; the other end is an arbitrary session | the invariant on what has been given to `send`, with the messages left, over all histories; what arrives by C81; the close by the lemmas of C103 | partial |
| C117 | The UDP echo client | Model/UdpClient.lean: `bind`, `connect`, the loop with `send`, and `close`, on a host as in Model/Host.lean, frames and cache changes in between; each turn is given what `_run_thread` says | an invariant on count, messages, socket and socket table over all histories (handling a frame leaves the table and the ids of the sockets alone); the start by cases of `bind` and `connect`; the frame by the lemmas of C88 | partial |

## What is modelled and what is not

Modelled, function by function (the comment of each definition gives the lines):

* `lib/ip_helper.py` (checksum, local address choice), `lib/mac_address.py`, `lib/ip_address.py`, `lib/ip4_address.py`,
  `lib/ip6_address.py`, `lib/socket.py`, `lib/tracker.py`, `lib/tx_status.py`
* `protocols/{ether,arp,ip4,ip6,ip6_ext_frag,icmp4,icmp6,udp,tcp}`: `fpa.py`, `fpp.py`, `phrx.py`, `phtx.py`
* `protocols/udp/{socket,metadata}.py`, `protocols/tcp/{socket,session,metadata}.py`, `protocols/dhcp4/{ps,client}.py`
* `subsystems/{arp_cache,nd_cache,timer,rx_ring,tx_ring}.py`, and of `subsystems/packet_handler.py` the address state, start-up,
  duplicate address detection and multicast membership
* of `__init__.py` the constructor of the stack and `start`
* `examples/udp_echo_service.py`, `examples/lib/udp_service.py`, `examples/lib/malpi.py` (C102), `examples/udp_daytime_service.py`, `examples/udp_discard_service.py` (C112)
* `examples/tcp_echo_service.py` and `examples/lib/tcp_service.py`: the thread of a connection (C103), and all threads of the service together (C105)
* `examples/tcp_discard_service.py`, `examples/tcp_daytime_service.py`: the thread of a connection (C114)
* `examples/icmp_echo_client.py`: the thread (C115)
* `examples/tcp_echo_client.py`: the thread from the wait in `connect` on (C116); `examples/udp_echo_client.py`: the thread (C117)

Not modelled:

* log lines, `__repr__` of packets, `__debug__` blocks
* reading from and writing to the TAP device (`os.read`, `os.writev`, `select`) beyond "a frame arrives" and "writing succeeds or fails"
* thread start and stop (but for the frame queues), and preemption inside a handler: events are whole handler runs, except in `Model/Preempt.lean` (TCP sessions, C96), `Model/TimerThread.lean` (the timer, C97), `Model/Senders.lean` (sending in fragments, C98), `Model/Threads.lean` (sockets, C99), `Model/CacheThreads.lean` (the neighbour caches, C100), `Model/RingThreads.lean` (the frame queues with start and stop, C101) and where a file says otherwise
  (`receive`, `connect`, `accept` and start-up are split where they wait; the cache maintenance loop is split between entries)
* Python's limit on recursion depth (a long out-of-order queue, nested IPv6 fragments)
* what a session does with timers that an earlier one with the same addresses and ports has left behind (`C108_leftover_witness`)
* the command-line wrapper `examples/run_stack.py`, `lib/logger.py`, and `lib/stack.py` beyond its shared variables

## Where the code disagrees with its properties

Each is proved as a theorem about the model (the name is given) or noted as an observation outside the theorems.

* Checksum generation loses a carry for some packets (`C02_generate_wrong_witness`); such a UDP datagram cannot be delivered
  (`C70_checksum_witness`), such an IPv4 header with options is rejected (`C16_options_checksum_witness`).
* `Ip4Address.is_reserved` has a wrong mask (`C08_reserved_wrong_witness`).
* The host constructor from address and network does not check membership (`C12_unchecked_network_witness`); two such hosts can be equal with different hashes (`C109_out_of_place_witness`).
* Text: IPv4 address text may have octal numbers and anything after a blank (`C05_lenient_witness`); a NUL character raises another exception than
  the format error; a negative IPv4 prefix length is read as 0 (`C77_negative_length_witness`).
* IPv6 DSCP is not written correctly (`C17_dscp_lost_witness`).
* ICMPv6: the R flag of a prefix option is written over the A flag (`C21_pi_r_flag_witness`); options of a router solicitation are checked from
  offset 8 and read from 12 (`C21_rs_options_witness`, `C25_icmp6_hang_witness`); a stray byte after the options, a short or a long prefix option
  raise (`C25_*_witness`); only the first of several MLDv2 records is read (`C21_mld2_two_records`).
* IPv4, TCP parsers raise on an option kind in the last header byte or an option shorter than its fields (`C23_ip4_raises_witness`, `C24_*_witness`);
  the TCP parser raises on every rejected segment under 13 bytes (`C24_short_segments`).
* The TTL check looks at the version field (`C26_ip4_ttl_zero_witness`).
* Reassembly: overlapping fragments or a total above 65515 bytes raise and end the receive thread (`C31_*_witness`, `C70_too_long_witness`); the age
  test has its operands swapped, so nothing expires (`C32_never_expires_witness`); the IPv4 flow key lacks the protocol, so an ICMP fragment can complete a UDP datagram (`C80_mixed`).
* The IPv4 identification is never reduced, so fragmented sends fail for ever after 65535 of them (`C71_exhausted_witness`).
* The answer to an ARP request with a zero sender MAC is dropped (`C37_zero_sender_witness`).
* Segments with RST are answered with RST, and at the end of the sequence space the answer raises (`C63_rst_witness`, `C63_wrap_witness`).
* Cache maintenance can raise KeyError or lose a refresh when an entry changes under it (`Example.C40_race_witness`).
* A socket used after close can take another one's port or registration (`C46_use_after_close_witness`).
* TCP sequence numbers are not reduced modulo 2^32: connections end there (`C62_*`).
* TCP: an acknowledgement of the initial number itself corrupts the send buffer (`C53_early_ack`); the retransmission limit can be jumped over
  (`C56_never_aborts`); a partial acknowledgement leaves the rest without timer (`C56_never_retransmitted`); after a timeout one MSS is sent whatever
  the window (`C57_timeout`); the window of a SYN|ACK is scaled (`C57_syn_ack`); a peer that takes back window makes the timer method raise
  (`C58_raises`); `receive` can report end of stream too early (`C59_race`); the FIN may never be sent (`C59_no_fin`); callers can stay
  blocked (`C55_connect_stuck`, `C55_reader_stuck`); a SYN with data or a non-zero acknowledgement field is dropped by a listener (`C61_ignored`);
  `close` on a listener can hit the new connection (`C61_close_race`); a segment that arrives again is never acknowledged again (RFC 9293, 3.10.7.4),
  so one lost acknowledgement can end a connection, and only one end of it (`C86_lost_ack`).
* TCP: segments kept behind a gap are thrown away when the segment that fills it acknowledges more than they do (`C94_thrown_away`).  A segment that
  arrives between the state change to FIN_WAIT_1 and the sending of the FIN may keep the FIN from ever being sent (`C93_race`).
* The timer has no lock: a timer under a new name registered while the thread goes through the timers ends the thread (`C97_dies`), a method registered
  while the list of tasks is being replaced never runs (`C97_lost`), so that a connection never sends its SYN (`C97_silent`).
* The identification is read again for every fragment from a counter shared by all threads: a datagram is lost when another thread begins to send a
  fragmented one to anywhere (`C98_lost`), and two for one address can arrive as one that nobody sent (`C98_mixed`).
* Sockets used by several threads (C99): `bind`, `connect` and `sendto` search and change `stack.sockets` without a lock: two threads can bind one port
  (`C99_both_bound`), a call can raise RuntimeError because of another thread's (`C99_raises`), and a datagram for a socket that is being connected can be
  refused (`C99_gap`).
* Neighbour caches (C100): the maintenance thread judges an entry and then removes whatever is stored under the address: an entry learned in between is
  removed though new (`C100_lost`).
* Frame queues (C101): `stop` does not wait for the thread to end; `start` soon after it leaves two threads at one queue, of which one can end by
  IndexError (`C101_dies`) and which can send frames out of order (`C101_overtakes`).
* UDP echo service (C102): `sendto` raises gaierror when the socket is bound to 0.0.0.0 and there is no way to the peer; the service does not
  catch it, so one datagram with such a source address ends it (`C102_ends_witness`).  The answer may leave from another address than the one
* UDP echo service: after 65535 fragmented IPv4 packets the first message whose answer needs fragments ends the service with `AssertionError` (`C102_exhausted_witness`).
  asked (`C102_source_witness`).  The same ends the UDP daytime service (`C112_ends_witness`), but not the discard service (`C112_discard`).
* TCP echo service (C103): a segment that arrives inside a receive call makes the service take the connection for closed, say so and close it
  (`C103_race_witness`).  After "quit" the loop goes on (`continue`, where the other branch has `break`): the thread waits for ever in `recv`
  (`C103_stuck_witness`), or ends with `BrokenPipeError` if the client sends more (`C103_dies_witness`).
* TCP discard service: the race in `recv` and the thread that waits for ever after "quit" are there, too (`C114_discard_race_witness`, `C114_discard_stuck_witness`).
* ICMP echo client: the sequence number is never reduced to two bytes, so that the thread ends with AssertionError after 65536 messages, about 18 hours (`C115_exhausted_witness`); pinging an IPv6 address from the command line ends with AssertionError at once (`C115_default6_witness`).
* TCP echo client: the loop does not look at `_run_thread`, so that `stop()` has no effect; made to send without end it goes on while its session may send (`C116_stop_witness`).
* UDP echo client: with a message of 3277 blocks or more the thread dies of `struct.error`, which `except OSError` does not catch, and its socket stays open (`C117_long4_witness`).
* UDP echo client: when `connect` fails the client returns without closing its socket, and the port stays in use; an IPv6 address cannot be reached from the command line (`C117_leak_witness`).
* TCP services (C105): the loop around `accept` does not look at `_run_thread`, so `stop` stops nothing: a client that connects afterwards is
  accepted and greeted, and then its thread returns without closing the connection (`C105_stop_witness`).
* MLDv2 reports (C106): the length of auxiliary data is taken for bytes, RFC 3810 counts 32-bit words (`C106_aux_witness`).
* IPv4 and TCP options (C107): an option with length 1, which is less than the two bytes it counts, is accepted, also if its length is the first byte behind the header (`C107_option_witness`).
* Duplicate address detection: a late second answer disqualifies the next candidate (`C65_ip6_spurious`); IPv4 conflicts are noted in a set nobody
  reads (`C65_ip4_conflict`); so start-up can refuse an advertised address nobody uses (`C76_spurious`).
* Duplicate addresses between two hosts (C104): two hosts that ask at the same time both take the address (`C104_simultaneous`); a host that has an
  address with a gateway asks from that address, without saying its link-layer address, so the answer can be lost (`C104_unknown_asker`); a question
  with a wrong checksum (C02) is not answered (`C104_checksum`); a probe makes the owner learn that 0.0.0.0 is the prober (`C104_ip4_partial`).
* A constructor call that raises leaves what it had read: tried again, the stack has its IPv4 address twice (`C95_leftover_witness`).
* Full TCP segments over IPv6 are always fragmented: the segment size leaves room for an IPv4 header only (`C83_ip6_fragments`).
* Leaving a multicast group is not reported to routers (`C82_leave_silent`, `C82_stale_report`).
* A single frame ends the receive thread for good: TCP segments shorter than thirteen bytes or whose sequence numbers run past 2^32 - 1, cut off TCP or
  prefix options (`C110_short4_witness`, `C110_short6_witness`, `C110_spill_witness`, `C110_frames_witness`); `Spec/Deaf.lean` lists all that can.
* IPv6 addresses as text: the form `x:x:x:x:x:x:d.d.d.d` of RFC 4291 is refused (`C111_quad_witness`); `::ffff:1.2.3.4` and the like are accepted.
* IPv4 addresses as text: what follows an address and a blank is ignored (`C113_blank_witness`), and a number with leading zeros is octal (`C113_zero_witness`).
* DHCP: a PAD option hangs the client (`C67_pad`); a host name that is not ASCII gives a malformed message (`C66_not_ascii`); replies are not matched
  to the transaction (`C68_not_matched`); an exception leaves port 68 bound (`C68_left_open`).

Observed, not stated as theorems: the simultaneous-open branch of SYN_SENT can never be taken; `register_timer(name, 0)` is expired until the next
tick and never again; IPv6 fragments are re-sent with the default hop limit; an NA without a target link-layer option for the DAD candidate is logged
with `None`; the timer task of a closed session is never unregistered.

## Testing the theorems

`seeded/LOG.jsonl` records wrong programs: for each, one definition of the model was edited in a scratch copy as a realistic bug would, every
dependent module was rebuilt with error recovery (a theorem whose proof fails is kept, resting on `sorryAx`), and the manifest theorems that failed or
that rest on a failed lemma were listed.  A property whose theorems all survived an edit that breaks it was tightened.
