# Formal model of rootcanal: design

## Layout

* `properties.jsonl` – the English properties (C01, C02, ...).
* `lean/Verif/<Component>/Model.lean` – functions of `/repo` transcribed as total Lean functions.
  Every definition cites the file and lines it models and states its simplifications.
* `lean/Verif/<Component>/Spec.lean` – when a property needs vocabulary, the small specification it is
  stated against. It never mentions the model's helpers.
* `lean/Verif/<Component>/Lemmas*.lean` – helper lemmas, invariants.
* `lean/Verif/<Component>/Props.lean` – the property theorems, each followed by a concrete non-vacuity example.
* `MANIFEST.json` – property → status → theorem names.
* `seeded/LOG.jsonl` – log of deliberately wrong models and the theorems that caught them.

## Modelling conventions

* Bytes are `Nat`s below 256 or `UInt8`, whichever makes the statement plainer; fixed-width arithmetic is either
  performed on `UIntN`/`BitVec` or on `Nat` with an explicit `% 2^n`, and the comment says which.
* An abort (`FATAL`, `ASSERT`, Rust `panic!`/`unwrap`/array index), undefined behaviour (out-of-bounds access, signed
  overflow) and non-termination are *distinct outcomes* of the model (`Outcome.abort`, `none`, ...), never assumed away.
* Loops become structural or well-founded recursion. Loops that may not terminate take the exact number of attempts
  that decides termination (for example a search over 256 handles), and running out of it is a distinct outcome.
* Threads: interleavings are explicit lists of atomic actions (the critical sections of the code).
* Where the code violates the English property, the negation is proved with a concrete reachable witness, and the
  strongest true version is proved as a `_partial` theorem. Each such disagreement is listed at the end of this file.

## Trusted base

* Lean 4.33.0's kernel. The theorems use at most the axioms `propext`, `Classical.choice`, `Quot.sound`.
* No axioms of our own, no `sorry`, no `native_decide`, no `bv_decide`.
* The transcription of `/repo` into Lean, reviewed by reading only: the code cannot be built in this sandbox.
* The PDL compiler is not part of the repository. `Pdl` models what its builders and views do with the declarations of the
  repository's packet description files (all of them, translated by tools/gen_pdl.py), and agrees with the 78 test vectors
  of hci_packets.pdl (`vectors_ok`). The other components take already decoded fields.

### What is modelled

| model | code |
|-------|------|
| `H4` | model/hci/h4_parser.{h,cc}, the use of it in h4_data_channel_packetizer.cc |
| `Addr` | lib/hci/address.cc, include/hci/address.h (text form) |
| `Conn` | model/controller/acl_connection_handler.{h,cc} (handles and lookups) |
| `Sco` | model/controller/sco_connection.{h,cc} |
| `Async` | model/setup/async_manager.{h,cc}: tasks and watched descriptors |
| `Phy` | model/setup/{test_model,phy_layer,phy_device}.cc |
| `Pcap` | lib/hci/pcap_filter.cc, include/hci/pcap_filter.h |
| `Sock` | model/devices/link_layer_socket_device.cc over net/posix/posix_async_socket.cc |
| `Hec` | model/devices/baseband_sniffer.cc, header error check |
| `Le` | model/controller/le_controller.cc and le_advertiser.cc: the LE list, privacy, advertising, scanning, initiating and periodic synchronization commands, `LeAdvertising`, `LeScanning` |
| `Ll` | le_controller.cc: reception of advertising, scan, connect and connected packets, HandleAcl, Disconnect, Reset |
| `Ec` | rust/src/lmp/ec.rs (all of it, as a function of the random octets), with num-integer's extended_gcd and num-bigint's signed octets |
| `Lmp` | rust/src/lmp/{manager,procedure/*}.rs: the five procedures of a link as trees of what they send and wait for, the links, and two devices connected to each other |
| `Sub` | le_controller.cc: LeSetDefaultSubrate, LeSubrateRequest, LeConnectionUpdate, LeRemoteConnectionParameterRequest(Negative)Reply, the reception of their PDUs, and two connected controllers |
| `Cs` | le_controller.cc:2312-3935 and le_cs_parameters.h: the channel sounding commands and PDUs, and two connected controllers |
| `Br` | model/controller/bredr_controller.{h,cc}: paging, page scan, ACL and synchronous connections, role switch, inquiry, remote information, data, Reset, timers, and two controllers connected to each other |
| `Hci` | model/controller/dual_mode_controller.cc: HandleCommand, the table of handlers and what each handler answers, CsrVendorCommand; controller_properties.cc: the supported commands of presets and features |
| `Link` | model/controller/le_controller.cc: procedures of a connected link (PHYs, encryption, features, versions, data), in a network of two controllers; le_acl_connection.{h,cc} |
| `Apcf` | model/controller/vendor_commands/le_apcf.{h,cc}; LeApcf in dual_mode_controller.cc |
| `Csr` | CsrVendorCommand and its helpers of dual_mode_controller.cc; vendor_commands/csr.h |
| `Both` | Disconnect and HandleAcl of dual_mode_controller.cc over `Br` and `Ll`; connection_handle.h |
| `Wire` | the handlers LeXxx of dual_mode_controller.cc for 37 commands: how they read the parameters and which event they answer with; invalid enumeration values are not modelled |
| `WireBr` | the handlers of dual_mode_controller.cc for 43 commands of `Br` and `Pol`: how they read the parameters and what they answer; most invalid enumeration values are not modelled |
| `WireLe` | which builders le_controller.cc and le_advertiser.cc use for the events of `Ll`, and with which values; the event masks and the signal strength are given |
| `WireLink` | the handlers of dual_mode_controller.cc for the commands of `Link` and `Sub`, and how their fields become arguments; which builders le_controller.cc uses for the events of `Link` and `Sub`; the part of the LE controller only where both controllers are called |
| `WireAir` | which builders and views le_controller.cc uses for the link layer packets of `Link` and `Sub`, and the dispatch on the packet type (le_controller.cc 4121-4237); the same for 23 packets of `Br` (bredr_controller.cc 1359-1463) and for advertising, scanning and connection requests of `Ll` (le_controller.cc 4092-4119); not the packets of other procedures (isochronous streams, channel sounding, LLCP, LMP, responses to inquiries, synchronous data); a view that is not valid reads nothing |
| `Reg` | configuration parameters: dual_mode_controller.cc, bredr_controller.{h,cc}, le_controller.{h,cc} (writes, reads, Reset, host features, link policy) |
| `Pdl` | packets/{hci,link_layer,bredr_bb}_packets.pdl, rust/{lmp,llcp}_packets.pdl: all 870 packets, with the meaning of the description language |
| `Port` | model/hci/{hci_socket_transport,h4_data_channel_packetizer,hci_sniffer}.cc, model/devices/{hci_device,baseband_sniffer,beacon}.cc |
| `Cfg` | model/controller/controller_properties.{cc,h}: presets, features of a configuration, the checks of features and commands; the tables are generated by tools/gen_cfg.py |
| `Live` | link supervision: CheckExpiringConnection of le_controller.cc and bredr_controller.cc, the timers of le_acl_connection.cc and acl_connection.cc, on the queue of `Task`; the clock stands still during one check |
| `Voice` | EnhancedSetupSynchronousConnection, EnhancedAcceptSynchronousConnection and the voice setting of bredr_controller.cc |
| `Pol` | the commands about a connection of bredr_controller.cc (357-381, 851-1068, 1153-1214), ReadRssi, LeReadPhy, LeSetDataLength, LeReadRemoteTransmitPowerLevel; when LE connections begin and end is an input |
| `Flow` | HandleAcl, HandleSco and the loopback of HandleCommand of dual_mode_controller.cc, HandleAcl, SendScoToRemote and the reception of data of the two controllers, octet for octet over `Pdl`; when connections begin and end is an input |
| `Watch` | the descriptor watcher of model/setup/async_manager.cc (107-281); the results of `select` are inputs |
| `Env` | the servers of desktop/test_environment.cc, with the test model of `Phy`, the timer and reset of test_model.cc and the connection handling of test_channel_transport.cc; three threads whose works can overlap |
| `Bye` | `Close` of the controllers of a device whose host left, over `Br` and `Ll` |
| `Fd` | net/posix/*.cc: who owns a descriptor and where the callbacks of the watcher go; the results of the calls of the operating system are given |
| `Iso` | rust/src/llcp/{iso,manager}.rs, HandleIso and the reception of ISO PDUs |
| `Task` | the task queue of le_controller.cc |
| `Test` | model/setup/{test_channel_transport,test_command_handler}.cc |
| `Mask` | the event mask tests of the three controllers |

Not modelled: the text of the generated packet parsers, the MSFT vendor commands, what the
handlers of dual_mode_controller.cc do with the parameters except where `Reg`, `Br`, `Le`, `Ll`, `Link`, `Iso`, `Sub`, `Cs` and `Apcf` say so, the operating system (sockets, clocks, threads beyond critical sections), logging,
and the Python bindings. The rows are extended as the model grows.

## Checking the model against the project's tests

The tests of the project are read as text and replayed on the model, as `example`s that the
kernel evaluates. They test the model, they prove no property.

| module | source | what is replayed |
|--------|--------|------------------|
| `Le.Vectors` | test/controller/le/*.cc | 192 of the 204 tests, 510 commands with the status each returns |
| `Ll.Vectors` | test/LL/scan_*.py, test/LL/DDI/SCN/*.py, test/LL/CON_/INI/*.py, test/LL/DDI/ADV/BV_{01-07,11,15,17,19} | 24 tests of the LE link layer: every status, event and packet, and no others |
| `Lmp.Vectors` | rust/test/{SP,ENC}/*.in | the 19 transcripts of pairing and encryption that pass; the 16 marked `should_panic` fail on the model too |

Both modules are generated, by tools/gen_le_vectors.py and tools/gen_lmp_vectors.py.

## Plan per property

| id | modelled | how proved |
|----|----------|------------|
| C01 | H4Parser state machine byte for byte | simulation: feeding pieces = feeding bytes; induction over packets |
| C02 | recovery branch of the same machine | invariant "buffer = longest suffix that is a prefix of the pattern" |
| C03 | same | invariant on reachable states |
| C04 | Address::ToString/FromString on lists of characters incl. strtol | computation per nibble, lifted by induction on fields |
| C05, C06 | AclConnectionHandler | invariant over operation lists |
| C07 | ScoConnectionParameters, exact rational comparison | optimality of a fold; case analysis |
| C08, C09 | AsyncTaskManager: sequential operations and interleaved critical sections | invariants; witness for the violated parts |
| C10, C11, C12 | TestModel/PhyLayer/PhyDevice | invariant over operation lists |
| C13, C14 | PcapFilter | structural induction; non-interference |
| C15 | LinkLayerSocketDevice::Tick with memory bounds as outcome | refinement to a length-prefixed parser; witness for overrun |
| C16 | HEC | linearity over GF(2) |
| C17, C18 | LE list commands | invariant over command lists |
| C19, C20 | advertising sets | invariant over command lists |
| C21 | report splitting loops | induction on payload length |
| C22, C23, C24 | command validation | arithmetic |
| C25 | HandleIso and IncomingLeConnectedIsochronousPdu | refinement to SDU sequence; witness for interleaving |
| C26–C30 | IsoManager | invariant over operation lists; witnesses |
| C31 | event masks | bit arithmetic |
| C32 | generate_rpa and resolution, abstract cipher | bit arithmetic |
| C33 | ec.rs on integers | refinement to Mathlib's Weierstrass group law; witness for the encoding bug |
| C34, C35 | LMP procedures as a free monad; link manager | exhaustive simulation lifted to all choices |
| C36, C37 | LE connection state machine | invariant; witness |
| C38 | task queue | invariant; witness |
| C39 | periodic sync state machine | invariant; witness |
| C40, C41 | channel sounding | bit arithmetic; witness |
| C42 | test channel codec | round trip |
| C43, C44 | the LE command layer of C17–C23 | case analysis over commands; witnesses |
| C45 | the isochronous model of C25–C30 | classification of faults; witnesses |
| C46 | advertising sets with limits | invariant over ticks |
| C47, C48 | test channel command handler and timer | case analysis; invariant over commands; witnesses |
| C49, C50 | scanner filter and duplicate history | exact condition; invariant over histories |
| C51, C52 | scan requests and responses | exact condition; balance invariant; witness |
| C53, C54 | initiator and advertiser | exact condition; composition of two controllers; witnesses |
| C55 | scan timers | statement about all runs; witness |
| C56 | ec.rs on integers | panics as outcomes; witness: a point of order two |
| C59 | two controllers with the timing commands of C24 | invariant over all schedules; witnesses |
| C62, C63 | BrEdrController with its attempt and request states | an automaton of what the host sees, followed by every history; invariants; witnesses |
| C64 | two BrEdrControllers and the packets between them | each controller abstracted to its view of the other; invariant with five phases over all schedules; witnesses |
| C65 | the same, with abort, endless loop and wild read as outcomes | exact characterisation of the failing steps in reachable states; a class of histories without them |
| C66, C69 | the same two controllers | the exchange computed for all reachable states and all parameters; witnesses |
| C67 | the inquiry state of one controller, and two controllers | an automaton of what the host sees, followed by every history; witnesses |
| C68 | the same two controllers | an invariant over all schedules: received and on its way equals sent; one acknowledgement for each packet in every history |
| C70 | the table of handlers (generated from the sources by tools/gen_hci.py) and HandleCommand; a handler runs through any of its branches | all ways of all handlers computed once by the kernel, lifted to every run by induction; witnesses for the exceptions |
| C71, C72 | the bit masks, the opcode table, the presets and the features | a law of the bit operations for all masks; the tables checked by the kernel |
| C73 | HandleCommand with its two modes | induction over histories |
| C74 | two connected controllers, the link between them, LTK requests and replies | invariants over all histories; the agreement for orderly hosts (partial) |
| C75 | the same, PHY requests, responses and update indications | the indications on the way turn one end into the other |
| C76 | the same, data | sent = received ++ on the way |
| C77 | the same, features and versions | asked = answered + on the way |
| C78 | LeApcf and le_apcf.cc: the table of filters and seven tables of conditions | refinement to filters that own their conditions |
| C79 | commands that write and read configuration parameters, Reset | refinement to a table from parameters to values |
| C80 | builders and views of all declared packets, for any declaration | induction over declarations, for those that pass a check of sizes and lengths; the check computed by the kernel for each declared packet |
| C81 | the same | two packets with a common parent that differ in a condition accept no octets in common; the condition checked by the kernel for each pair |
| C82 | the transport, the device and its parser, for any controller and any network | invariants of all histories; the parser by C01 to C04 |
| C83 | the sniffer with its file, on top of C82 | the file is the header and the records of the history; reading it back by induction over the records |
| C84 | builders and views of C80 with the parser of C01 | each declared packet has the length field that the parser reads; then C01 |
| C85 | the baseband sniffer, with the packets of C80 and the header of C16 | reading the records by C80, the file as in C83 |
| C86 | the beacon | induction over histories |
| C87 | presets and the nine features | bitwise laws of setting a mask |
| C88 | the feature checks | each condition of the code against the tables of the specification |
| C89 | the command checks: 312 commands, 117 requirements | each requirement against its text; the tables compared in the kernel |
| C90 | presets, features and commands | a command depends on the fields its requirements read; these are enumerated, the others proved irrelevant |
| C91 | the check of silent connections on the task queue, the clock and what is seen of both | invariant over histories: each connection has a check pending at most half a timeout, or after a ping a whole one, after its last packet |
| C92 | the enhanced synchronous connection commands and the voice setting, on two controllers of `Br` | tests against the rules of the specification; histories flattened to those of C66 |
| C93 | the remaining commands that name a connection, as answers of a controller of `Br` extended by RSSI, LE connections and the out of band counter | what one step does to each connection (`Kept`), then induction over histories |
| C94 | `Flow`: the handlers of data with the queued reports as part of the state | invariant over histories: reports given plus reports queued = packets handed over |
| C95 | `Flow` in the loopback mode | reading back what was written, for all fields; induction over sessions |
| C96 | two controllers of `Flow` | reading back what was written, twice (HCI and air); induction over sequences |
| C97 | `Lmp`: the procedures as trees, and the conversations that lead through them (`replay`, `reach`) | composition of conversations along the code; a program that never tells of a key, one that tells only at its end |
| C98 | `AsyncFdWatcher` as a transition system of critical sections | invariants over histories; the registration of a descriptor is read off the history alone |
| C99 | `Env` over `Phy`: works of the main thread, of the watcher and of the task thread, with beginnings and ends | invariants over histories; overlapping works that use the same object are a race |
| C100 | `Bye` over `Br` and `Ll`: what the device that leaves sends, and the run of a receiver over those packets | induction over the arriving packets, with the invariants of reachable states |
| C101 | `Br`: a table of the status of every command, with literal codes, over what the host can know | case analysis over all commands; no bound on the state |
| C102 | `Fd`: live sockets, servers, open descriptors and the table of the watcher, with one action per call | invariant over all histories (descriptors of the sockets are a permutation of the open ones; callbacks go to their owners) |
| C103 | `Cs`: a list of reasons with literal codes for every command, and what an accepted command leaves, asks and tells | case analysis over all commands; the chains of tests become one disjunction each |
| C104 | `Cs`: for every PDU the reasons to refuse it with literal codes, and tables of what is kept, sent and told otherwise | case analysis over all PDUs |
| C105 | `Iso`: a list of reasons with literal codes for every command, what an accepted command does, the request for a stream, and the events of a lost link | case analysis over all commands; the nested loops become one list of reasons; the invariant of the manager for the request |
| C106 | `Le`: a list of reasons for every command, stated with propositions over the state and the rules of the Core Specification | case analysis over all commands; induction over the lists of sets and PHYs; the loops over sets change nothing the reasons speak about |
| C107 | `Le`: a host that takes notes of accepted commands, connections, ticks and resets and foretells the output of every tick from its notes | refinement: a relation between notes and state is kept by every operation; the output of the tick is computed from both sides. Partial: histories with a refused LE Set Extended Advertising Enable for several sets are left out, with a counterexample for them |
| C108 | `Br`: a host that takes notes of its commands and of the connections it is told of, and foretells the answers to inquiries, pages, requests for the name and the features, and role switches | a relation between notes and state is kept by every step; the answers are computed from the notes. The link policies only for hosts that do not mask Connection Complete |
| C109 | `Ll`: a host that takes notes of its accepted commands, of the reports and requests that followed and of time, and foretells what happens to an advertising packet or scan response | a relation between notes and state is kept by every step, for all histories; then C49, C51, C52, C53 read in terms of the notes. Partial: the PHY of legacy packets, the pause between duration and period, the scan type per PHY |
| C110 | `Ll`: the host's notes of C109 together with notes on periodic advertising (what it waits for, the list, the handles it was told) foretell what a packet of a periodic advertiser leads to | a relation between notes and state is kept by every step, for all histories; then the packet handler is read in terms of the notes. Partial: reports need a scan, go on without a timeout, and cannot be disabled |
| C111 | `Ll`: the notes of C109 foretell what the two read commands for resolvable private addresses give after every step | how every handler edits the resolving list is worked out once (only the two addresses change, of at most one entry per call), and read in terms of the notes, for all histories. Violated in one respect: an address that was never in use is read |
| C112 | `Ll`: the notes of C107 (advertisers) and C109 (lists) kept together over histories with packets of other devices | both relations between notes and state are kept by every step, including the connections that end advertising; then the scan and connect handlers are read in terms of the notes. Partial as C107 is, and violated in two respects: directed sets do not answer a listed peer, and the host is not told of scan requests |
| C113 | `Ll`: a list of connections kept from two events only | each step either leaves the connection table and these events alone, or adds or removes one entry with one event; then the data, disconnect and reset handlers are read in terms of the list, for all histories |
| C114 | `Br`: a book of connections (device and role by handle) kept from three events only | each step keeps the book equal to the connection table; handles of synchronous connections are kept apart by their range; then the data, request, role switch, disconnect and reset handlers are read in terms of the book, for all histories |
| C115 | `Iso`: notes about every stream (idle, asked, offered, established, with the link) kept from commands, events and lost links | each step keeps the notes equal to a function of the table of streams and the queue of requests; then the commands are read in terms of the notes, for all histories |
| C116 | `Iso`: two managers joined by two queues of PDUs, with host commands, deliveries and new iteration orders in any interleaving | an invariant of the protocol over the streams of the peripheral as they will be once all PDUs have arrived, kept by every step of patient hosts |
| C117 | `Br`: the table of synchronous connections against a book of the host (`SpecCalls`) | an invariant: the open entries are the known connections, the others the open requests, and only the first entry of a device may be a request; kept by every step |
| C118 | `Reset`: each part of the controller as a machine with an output (`Br`, `Pol`, `Ll`, `Apcf`, `Reg`, `Flow`) | the state after Reset (and a tick) is computed from any reachable state and does not depend on it; what a host cannot change is an invariant |
| C119 | `Br`: two controllers and the packets between them (`SpecTalk`), every interleaving | a refinement: each side has one of four states, each packet is one of four words; fourteen joint shapes of the two states and the two queues are kept by every step |
| C120 | `Ll`: the reports of legacy and extended PDUs and of scan responses | case analysis of the report functions against reports written out from the PDU (`SpecKind`); for scan responses an invariant of the pending requests over the history |
| C121 | `Ll`: two controllers and the packets between them | each step is one of nine kinds (`TwoStep`); an invariant relates the connection of the advertiser to that of the initiator after the packets on their way (`TwoInv`, `drain`) |
| C122 | `Storm`: any number of devices (`Ll`, `Link`, `Sub`, `Cs`, `Iso`, `Br`) and the packets on their way | each packet has a rank; what is sent on receiving it has a smaller one (`Causes.rank`); replacing an element of a list by smaller ones is well-founded (`less_wf`) |
| C123 | `Lmp`: any number of link managers (`Talk`), links that come and go, packets on their way | each waiting of a procedure, each queued packet and each packet on its way is worth the number of packets it can still cause (`worth`); every step pays for what it sends (`step_pays`, `talkStep_pays`) |
| C124 | `Csr`: the command on octets, with its assertions and its unguarded writes | the octets of a request are written down (`Request.wire`) and the function is computed on them; for other octets by cases |
| C125 | `Both`: `Br` and `Ll` in one device, with the two functions that choose a controller by the handle | a history is projected to the histories of the two controllers (`run_br`, `run_le`); then C113 and C114, and the ranges of the handles |
| C126 | `Wire`: the handlers of 37 LE commands, from the octets through the layouts of `Pdl` to the calls of `Le` and back to the octets of the answer | the octets of the core specification are the encoding of the fields (`read_*`), and parsing inverts encoding (`Pdl`) |
| C127 | `WireBr`: the same as C126 for 43 commands of `Br` and `Pol`, with the values of the answers | as C126 |
| C128 | `WireBr`: the builders of the events of `Br` and `Pol` and of data | the octets are those of the core specification, and a reader written from it inverts them |
| C129 | `WireLe`: the builders of the events of `Ll` and of data | as C128, and the fragments of an advertisement's reports fit the octets of an event |
| C130 | `WireLink`: the handlers of the commands of `Link` and `Sub`, and their answers | as C127 |
| C131 | `WireLink`: the builders of the events of `Link` and `Sub` | as C128 |
| C132 | `WireAir`: the builders and views of the link layer packets of `Link` and `Sub` | round trip through the layouts of `Pdl`, for each packet; an invariant of the two networks: all packets on their way fit their fields |
| C133 | `WireAir`: the builders and views of the link layer packets of `Br` | as C132, for each packet; not for LMP, responses to inquiries and synchronous data |
| C134 | `WireAir`: the builders and views of the link layer packets of `Ll` that belong to no connection | as C132, for each packet; the transmission power, which `Ll` leaves out, is arbitrary |
| C60, C61 | two controllers with the channel sounding of C40 | case analysis over commands and PDUs; witnesses |
| C57, C58 | the two devices of C34 | the same exploration; witnesses on a fixed fair schedule |

## Where the code and the property disagree

Each entry names the theorem that proves the disagreement on a concrete input.

* C04 (`C04_strict_parse_violated`, `C04_invalid_leaves_target_violated`): the text parser accepts strings that
  are not six two-digit hex octets, and can modify its target on failure.
* C05: creating a 257th connection of a kind never returns (`C05_search_terminates_iff`); the English property excludes it.
* C07 (`C07_types_allowed_violated`): the sizes of 3-EV3 and 2-EV5 are exchanged in the packet table.
  `C07_sco_bandwidth_violated`: the SCO fallback ignores the bandwidth. `C07_dont_care_bandwidth_violated`,
  `C07_receive_bandwidth_violated`: the don't-care bandwidth is 0xFFFF instead of 0xFFFFFFFF, and the receive
  bandwidth is checked on eSCO requests only.
* C08 (`C08_periodic_runs_after_cancel_violated`, `C08_one_shot_runs_after_cancel_violated`): between picking a task
  and starting its callback the scheduler thread holds no lock, so the callback can run after the cancelling call has
  returned. `C08_cancel_user_isolated_violated`: cancelling a task leaves its identifier recorded for its user; after
  the identifiers wrap around, cancelling that user's tasks cancels another user's task.
* C11 (`C11_exactly_once_violated`): a device attached twice to a phy, or two devices sharing two phys of one type,
  receives a packet twice.
* C12 (`C12_no_reuse_distinct_violated`): an address generated for a device can be given again after the device is
  removed. `C12_generates_iff_free`: when all 65536 generated addresses are in use, adding a device never returns, even
  when an explicit address is supplied.
* C13 (`C13_gap_type_kept_violated`, `C13_gap_name_replaced_violated`): the name walk over advertising data is one octet
  off, so the type octet of a name structure is overwritten and the last octet of the name survives.
  `C13_malformed_aborts_violated`: a correctly framed command with too few parameters aborts the filter.
* C14 (`C14_distinguishable_violated`): two distinct names shorter than the counter's digits can share a pseudonym.
* C15 (`C15_overrun_violated`, `C15_overrun_always_violated`): after a partial read of a length the device asks for four
  bytes again and writes past its buffer. `C15_empty_packet_closes_violated`: a length of zero closes the connection.
  `C15_full_socket_violated`: when the socket is full after the length was sent, the stream loses its framing.
* C17 (`C17_filter_accept_list_violated`): a device added twice to the filter accept list survives one Remove.
  `C17_filter_accept_list_in_use_violated`: the list can be cleared while an initiator with the filter policy
  "accept list with decision PDUs" is using it. `C17_resolving_list_sync_violated`: the resolving list can be cleared
  while resolution is enabled and a periodic sync is being created.
* C18 (`C18_unchecked_commands_violated`): Clear Advertising Sets, Create Sync and some other extended commands do not
  take part in the exclusion.
* C20 (`C20_rejected_data_violated`, `C20_rejected_scan_response_violated`): replacing the data of an enabled set by
  data that does not fit one PDU is rejected with Packet Too Long, but the old data is gone.
* C22 (`C22_create_connection_violated`, `C22_extended_create_connection_violated`): a supervision timeout equal to the
  bound is accepted. `C22_connect_request_violated`: the connection request takes its timing from the 1M PHY parameters
  even if only another PHY was requested. `C22_connection_update_violated`: LE Connection Update is not validated.
* C23 (`C23_2m_accepted_violated`, `C23_2m_shifts_violated`): scanning on the 2M PHY is accepted, and shifts the
  parameters of the coded PHY.
* C43 (`C43_handle_255_violated`): LE Set Extended Advertising Enable with handle 0xFF reads past an array.
* C44 (`C44_advertising_enable_violated`, `C44_extended_enable_violated`): rejected enable commands have generated new
  private addresses, and a running set starts to use one. The data commands: see C20.
* C25 (`C25_interleaved_violated`): one buffer assembles the SDUs of all streams, so interleaved fragments are mixed.
  `C25_header_violated`: every fragment is expected to start with a header, which the specification has only in first
  and complete ones. `C25_wrong_stream_violated`: received data is attributed by CIG and CIS identifiers alone, which
  two centrals can share. `C25_disconnected_violated`: data is still sent over a disconnected CIS.
* C26 (`C26_last_handle_violated`): the CIS handle 0xEFE is never assigned, and one more request from a peer than there
  are handles aborts the controller.
* C28 (`C28_overflow_violated`, `C28_zero_violated`): the choice of the ISO interval overflows for legal SDU intervals
  without a small common multiple, and divides by zero for a group without SDU intervals.
* C29 (`C29_stuck_violated`): when a CIS that waits for its peer is disconnected, the rest of the LE Create CIS command is
  never started. `C29_one_at_a_time_violated`: a second LE Create CIS command is accepted while the first is under way.
  `C29_remove_queued_violated`: a CIG with a queued CIS can be removed, and the controller aborts later.
* C30 (`C30_directions_violated`): the peripheral's event has the burst numbers, flush timeouts and PDU sizes of the
  other direction. `C30_wrong_cis_violated`: with two requests under way, an answer can be taken for the wrong one.
* C45: legal commands that abort the controller (`C45_large_sdu_violated`, `C45_no_data_violated`,
  `C45_interval_violated`), undecodable commands and unexpected PDUs (`C45_undecodable_violated`), and peers that do it
  (`C45_disconnect_reason_violated`, `C45_phy_violated`, `C45_latency_violated`).
* C38 (`C38_cancel_running_violated`): a periodic task that is cancelled while its callback runs is inserted again when
  the callback returns, and runs again. Two further limits of the queue: a period of zero keeps the loop of one tick
  running for ever, and once the 32-bit identifiers have wrapped around, a new task can get the identifier of a periodic
  task whose callback is running.
* C42 (`C42_split_violated`): a test channel command that arrives in two pieces is misread, since short reads are only
  logged.
* C47 (`C47_crash_violated`): `del`, `del_phy` and `set_timer_period` without arguments read past an empty vector, and a
  beacon interval that is not a number ends the process. `C47_silent_violated`: `list` with arguments is not answered.
  `C47_other_device_violated`: a text that is not a number stands for device 0, and identifiers are taken modulo 2^32.
  `C47_client_gone_violated`: the process aborts if the client is gone when a response is written.
* C48 (`C48_started_twice_violated`): a timer started twice cannot be stopped any more.
* C31 (`C31_unchecked_violated`): 57 of 139 places that send an event ignore the masks or test only the LE Meta bit,
  among them every event of the Rust link manager and isochronous manager. `C31_page_2_violated`: the second page is read
  one bit too low, so Encryption Change version 2 follows bit 24 instead of bit 25.
* C39 (`C39_duplicate_violated`): Create Sync with the periodic advertiser list does not look at the synchronizations that
  exist, so a second one to the same advertiser can be established. `C39_handles_exhausted_violated`: with 0xEFF
  synchronizations the search for a free handle does not end.
* C36: a response to a connect request is dropped only if *both* its advertiser and its initiator are unexpected (`&&`
  for `||`), so a response of another device (`C36_other_device_violated`) or to another initiator
  (`C36_other_initiator_violated`) creates a connection. LE Create Connection Cancel does not forget the request
  (`C36_after_cancel_violated`), and without any attempt a response to the empty address is accepted
  (`C36_no_attempt_violated`).
* C52 (`C52_other_scanner_violated`): the destination of a scan response is not looked at.
* C53 (`C53_no_address_violated`): creating a connection with the filter accept list and the own address type
  "resolvable or random" does not check that a random address is set; the PDU of a listed device then aborts the
  controller. `C53_parameters_violated`: the request always has the parameters of the LE 1M PHY, even if it is not used.
* C54 (`C54_second_connection_violated`): a second connection to a connected device is created instead of the error
  Connection Already Exists.
* C55 (`C55_periodic_violated`): a periodic scan goes on reporting between the end of the duration and the end of the
  period.
* C33 (`C33_same_key_violated`): `to_bytes` writes coordinates with `to_signed_bytes_le` cut to the key size, and
  `to_point` reads them as signed numbers. A coordinate with the top bit set is read back 2^256 too small, so the two
  devices of the private keys 2 and 3 compute different shared keys. Only about one public key in four survives.
* C33 (`C33_sign_violated`): `%` truncates, so a coordinate can be computed as x − p. Two devices that compute the same
  point can therefore hold different octets.
* C33 (`C33_generate_violated`): the random octets of −2^191 (−2^255) make key generation panic.
* C56 (`C56_public_key_violated`): the peer's public key is not checked to be on the curve. A second coordinate of zero
  makes every even private key reach the point at infinity, and `to_bytes().unwrap()` panics.
* C34 (`C34_hangs_violated`): with these answers an authentication never ends, on any fair schedule: a negative PIN reply
  (no procedure takes that command), a negative IO capability reply of the responder (the initiator waits for
  LMP_io_capability_res only), a negative reply of the initiator's host to the request for out-of-band data (the responder
  is not told), a negative passkey reply when both users type the passkey. `C34_concludes_iff` shows that there are no
  others. A negative reply of the responder's host to the request for out-of-band data is ignored.
* C35 (`C35_empty_address_violated`): a command about the address 00:00:00:00:00:00 is stored in an unused link and never
  answered; a second one aborts the process. `C35_command_aborts_violated`, `C35_packet_aborts_violated`,
  `C35_eighth_link_violated`: commands, packets and links that abort it.
* C57 (`C57_both_hosts_violated`): a procedure takes any LMP_features_res_ext, whatever page it is about. When both hosts
  ask for encryption at once, both are told E0 although both devices support AES-CCM.
* C58 (`C58_both_pair_violated`): when both hosts ask for authentication at once and there are no keys, both devices wait
  for good.
* C24 (`C24_legal_request_violated`): LeSubrateRequest compares the interval (units of 1.25 ms) with the timeout (units of
  10 ms) as numbers, so a legal request is refused unless its timeout is eight times what is needed.
* C24 (`C24_default_violated`): LeSetDefaultSubrate checks neither the product of factor and latency nor that the
  continuation number is below the factor.
* C24 (`C24_accepts_illegal_violated`, `C24_peripheral_refused_violated`): IncomingLlSubrateReq has its timeout check the
  wrong way round. It accepts requests whose timeout is too short, and refuses every request that a peripheral's own
  controller lets through.
* C24 (`C24_indication_violated`): a peripheral takes any indication unchecked. `C24_race_violated`: between two unmodified
  controllers a change of the interval that overtakes a subrate request leaves an illegal timing.
* C24 (`C24_peer_aborts_violated`): the role assertions and a signed overflow can be reached by a peer's PDU.
* C59 (`C59_connection_update_violated`): LE Connection Update at a central is neither validated nor applied to its own
  parameters; only the peripheral changes. `C59_peripheral_reply_violated`: a peripheral may reply to a request nobody
  made. `C59_refusal_violated`: a negative reply with reason 0 sets all parameters to zero.
* C40 (`C40_channel_79_violated`): the mask of LeCsCreateConfig ends with channel 78 (0x60 for 0xE0).
  `C40_peer_configuration_violated`, `C40_peer_map_violated`: the maps a peer sends are not looked at.
* C41 (`C41_abort_iff` and the theorems after it): `procedure_parameters.value()` throws for a configuration whose
  parameters were never set. This happens between two unmodified controllers: to a peripheral whose host set no
  parameters, and to a central whose request the peer refuses.
* C41 (`C41_remove_violated`): the PDU of LeCsRemoveConfig is checked like a creation and refused by every peer.
  `C41_terminate_violated`, `C41_disable_violated`, `C41_flag_violated`: a procedure that is enabled is never disabled.
* C60 (`C60_main_mode_violated`): the main mode of a peer's configuration is compared with the bits of the supported modes,
  so main modes 2 and 3 are always refused. `C60_role_violated`: the role is compared with the bits of the supported roles,
  so a device with one role refuses its counterpart. `C60_stale_violated`: a refused change leaves the old configuration
  with the peer only. `C60_unsupported_violated`: a peer without host support names configuration 0 in its refusal.
  `C60_event_violated`: two arguments of the event are exchanged.
* C61 (`C61_refused_violated`): the central ignores the status of the peer's answer. `C61_indication_violated`: the
  peripheral checks nothing.
* C62 (`C62_short_timeout_violated`): the first page is sent one second after Create Connection; with a page timeout up to
  one second (1600 slots) the device is never paged. `C62_reason_violated`: a page rejection with reason 0 is reported as
  a successful connection. The page timeout event ignores the event mask.
* C63 (`C63_reject_violated`, `C63_reject_create_violated`): RejectConnectionRequest does not clear the page scan state.
  After a rejection no device can connect any more until Reset, and the host cannot connect to the rejected device.
  `C63_accept_collision_violated`: the same after accepting a request of a device that has been connected meanwhile.
* C65 (`C65_failures` lists all of them): a second synchronous connection makes Disconnect abort
  (`C65_two_syncs_violated`); a peer's Disconnect aborts if there is a synchronous connection
  (`C65_peer_disconnects_violated`); the eighth connection aborts (`C65_eighth_violated`); a second answer for a
  synchronous connection with a stream aborts (`C65_second_answer_violated`); malformed LMP aborts
  (`C65_malformed_violated`); a features page above 2 reads outside the array (`C65_features_violated`).
* C64 (`C64_cancel_violated`, `C64_timeout_violated`, `C64_reject_violated`): an attempt that was cancelled, timed out or
  rejected can still be accepted by the other host, which then is connected alone. `C64_crossing_violated`: of two devices
  that page each other and accept, both are the peripheral. `C64_empty_address_violated`: every scanning device takes a
  page to the empty address. `C64_stale_page_violated`: pages are repeated until the answer arrives, and the last one may
  be accepted after the connection has ended. `C64_ping_violated`: pings are answered without a connection, so such a
  one-sided connection never expires.
* C66 (`C66_lengths_violated`): the packet lengths of the link parameters are sent unchanged, so the accepting host is told
  that it sends what the other sends. `C66_own_request_violated`: a host may accept its own request.
  `C66_stranger_violated`: a request does not need a connection. `C66_kind_violated`: the link type of a failure is looked
  up after the connection was erased.
* C67 (`C67_limit_violated`): `num_responses` is stored and never used. `C67_unasked_violated`: results are reported without
  an inquiry. `C67_mask_violated`: extended results ignore the event mask. `C67_short_violated`: the first inquiry is sent
  after two seconds; an inquiry of length 1 (1.28 s) is over before.
* C69 (`C69_subversion_violated`): the LMP subversion has 16 bits in the device and 8 in the packet.
  `C69_absent_violated`: the name request of a device that is not there is accepted and never answered.
* C70: of the handlers seven break the rule (`unruly`). `C70_contactCounter_violated`: Reset Failed Contact Counter creates
  the view of Read Failed Contact Counter, so it is always refused as malformed. `C70_eventFilter_violated`: Set Event
  Filter stops the controller for any filter other than "clear". `C70_oob_violated`: the link manager does not know Remote
  OOB Extended Data Request Reply and the assertion fails. `C70_csr_violated`, `C70_csrShort_violated`: the CSR command is
  answered with a vendor event, and writes outside its parameters if there are fewer than three. The two Intel commands
  assert the size of their parameters; an unknown APCF part is answered and then reported as invalid. Malformed commands
  of pairing and isochronous channels stop the controller (`C70_malformed_violated`).
* C71 (`C71_default_violated`): the default controller claims 33 commands it does not implement, among them Flush and Host
  Number Of Completed Packets; being strict, it stops when one arrives. The other presets claim 39, 50 and 58.
* C72 (`C72_shared_violated`): two commands are in the lists of several features; the last one decides.
* C73 (`C73_leave_violated`): leaving the loopback mode sends Connection Complete events.
* C74 (`C74_wrong_key_violated`): after a wrong key the peripheral's end is encrypted and its host is told so; the central
  only reports the failure. `C74_unasked_violated`: a reply nobody has asked for is taken. `C74_role_violated`: the
  peripheral may enable encryption. `C74_overlap_violated`: a second Enable Encryption replaces the key of the first.
* C75 (`C75_each_violated`): two Set PHY commands of the peripheral can lead to one event, since only a flag remembers them.
  `C75_other_connection_violated`: the requested PHYs are kept once per controller, so a request for one connection
  changes what another one gets.
* C76 (`C76_broadcast_violated`): data with a broadcast flag makes the controller abort.
* C77 (`C77_subversion_violated`): the subversion has 16 bits in the device and 8 in the packet.
* C78 (`C78_short_violated`): a Set Filtering Parameters or Broadcaster Address command that is too short makes the controller
  abort: the view that is checked is the outer one. Apart from the property: the scanner never looks at the filters, so they
  have no effect on the reports.
* C79 (`C79_constant_violated`): inquiry mode, page scan type, inquiry scan type and the activities of page scan and inquiry
  scan are read as constants, whatever is written. `C79_iac_violated`: before the first Reset no inquiry access code is set.
  `C79_sounding_violated`: Reset takes the channel sounding feature of the host away, but the commands are still allowed.
  `C79_page_violated`: Read Local Extended Features reads outside of an array for pages above 2.
* C81 (`C81_apart_violated`): LeSetExtendedAdvertisingEnableDisableAll and LeSetExtendedAdvertisingEnable accept the same
  command, and DM1AclPacket and FHSAclPacket have the same conditions. Apart from the property: the events Create BIG Complete
  and BIG Sync Established count octets where the specification counts streams; RejectInd has an error code of 16 bits
  (specification: 8) and EncReq an initialization vector of 16 bits (32); one test of hci_packets.pdl is about a packet that
  has been renamed.
* C82 (`C82_event_violated`, `C82_full_violated`, `C82_iso_violated`): an HCI event written by a host ends the process, as do
  read errors other than EAGAIN and ECONNRESET; a write that the socket takes only in part loses the rest, and the host then reads packets that were
  never sent; the lengths of ISO packets are read with 12 of their 14 bits.
* C83 (`C83_time_violated`, `C83_filter_violated`, `C83_dropped_violated`): the field for microseconds holds milliseconds;
  `HciSniffer::Create` does not pass on its filter; packets that are dropped because the socket is closed are recorded as sent.
* C84 (`C84_iso_violated`): ISO packets of 4096 octets and more are cut off (the same mask of the length).
* C85 (`C85_lap_violated`, `C85_long_violated`, `C85_page_violated`): the lower address part and the reference LAP are variables of
  eight bits; the length of a DM1 packet has five bits, so that LMP packets of 32 octets and more are not found in
  their records; a page that is cut off fails an assertion. The flags say that a CRC was checked though it is 0; times as for C83.
* C86 (`C86_scan_violated`): a beacon never answers scan requests, as beacon.h says it does: its advertisements are not scannable.
* C88 (`C88_le_only_violated`, `C88_slots_violated`): the features of the LE only preset (Laird) are measured with the rules for BR/EDR
  devices, so that the warning is always printed; for version 5.0 the slot availability mask is taken to be reserved.
* C89 (`C89_requirements_violated`, `C89_warning_violated`): thirteen requirements are not coded as their text says: "optional or excluded"
  is mandatory or excluded (C10, C50, C135, C136), "otherwise optional" is excluded (C12, C13, C152, C153, C154), optional is mandatory (C148), multi-slot packets are left out (C133),
  and the sleep clock accuracy and test mode are as the sources say not supported, but asked for (C37, C123). The warning that
  the supported commands are not consistent is never printed: the check always succeeds.
* C90 (`C90_presets_violated`, `C90_choices_violated`): each preset contradicts its own features, e.g. the default preset has no Remote Name Request
  Cancel, and LE Request Peer SCA without the feature; further commands do after a feature is turned on or off, e.g. LE Set Data Related
  Address Changes, which belongs to LL privacy, goes with extended and periodic advertising.
* C91 (`C91_supervised_violated`): the supervision timeout that the host gives for an LE connection has no effect: every connection is ended after
  three seconds without a packet, also one whose timeout is 20 s, and none before, also one whose timeout is 0.1 s.
* C92 (`C92_air_violated`, `C92_accept_path_violated`): the coding format of the enhanced commands has no effect, the hosts are told the air mode of the voice
  setting: CVSD for a connection that both asked to be transparent. A data path other than HCI in the accept command is ignored, although the log says that the data
  will be spoofed; only the side that sets up the connection gets the stream.
* C93 (`C93_oob_violated`, `C93_power_violated`, `C93_key_size_violated`): after Reset the out of band data starts again from the same values, so data of an earlier
  session comes back. LE Read Remote Transmit Power Level accepts PHYs that do not exist, and LE Set Transmit Power Reporting Enable reserved values. Read Encryption
  Key Size says 16 for a connection that is not encrypted, where the specification has the error Insufficient Security.
* C47 (`C47_period_violated`, `C47_short_write_violated`): a number that does not fit is not refused by `set_timer_period`, the period becomes -1 ms. If the socket
  takes only a part of a response the process aborts.
* C94 (`C94_reset_violated`, `C94_voice_violated`): Reset does not discard the reports of completed packets that are scheduled, so after it the host is told of packets
  it sent before. Synchronous data outside the loopback mode is never credited, also when the host has enabled synchronous flow control.
* C95 (`C95_command_violated`): a command with more than 252 octets of parameters comes back in a Loopback Command event longer than its length octet says.
* C97 (`C97_oob_violated`, `C97_refused_violated`): the responder does not look at the answer of its host to the request for out-of-band data: it says that there is none,
  and is told of an authenticated key. Refusals of the public key and of the nonces, and of the responder's DHKey check, are ignored. The values of the commitments are
  compared with zero and the values of the DHKey check and of the responses are not looked at (they are not in the model).
* C98 (`C98_unwatched_inside_violated`, `C98_stale_violated`, `C98_range_violated`, `C98_survives_violated`): a callback that stops watching another descriptor of its round
  does not prevent that descriptor's callback. A report of `select` is used for whatever descriptor has the number when the round begins. `FD_SET` is applied to any descriptor:
  above 1023 (one is open for each host) and for -1 (a closed socket) it writes outside the set. A registration while the watcher is stopped assigns to a thread that was not joined.
* C99 (`C99_race_violated`, `C99_answers_violated`, `C99_end_violated`, `C99_clock_violated`): the link-layer servers add their devices to the test model on the thread of the watcher,
  while a tick or a command can run on the task thread; so does the baseband sniffer on the main thread. The test channel replaces the response callback on the thread of the
  watcher. The answer to a command goes to whoever is connected when it runs. A second END_SIMULATION sets the promise again, and the exception ends the process. A second
  start_timer forgets the first timer, which nothing can stop any more.
* C100 (`C100_told_violated`): a device that has more synchronous connections with the one that leaves than the other has with it (its request is on its way, say) still has
  one when the end of the ACL connection arrives, and aborts.
* C102 (`C102_alive_violated`, `C102_watched_violated`): the move constructor of a socket that is watched leaves the callback with the old socket, which may be gone when it
  runs. Nothing in the program moves a socket. `_partial` theorems of C102 assume that no socket is moved.
* C102 (`C102_unbound_violated`): StopListening on a server whose port was taken uses an empty pointer; TestChannelTransport::CleanUp calls it without a test.
* C102 (`C102_listens_violated`): StartListening returns true although the thread of the watcher could not be started; on a closed server it watches descriptor -1.
* C102 (`C102_watch_violated`): WatchForNonBlockingRead that returns false leaves the socket watched, and a second call is refused.
* C102 (`C102_connect_violated`): the connector takes descriptor 0 for a failure and returns an open socket that is not connected.
* C103 (`C103_phy_violated`): LeCsSetProcedureParameters takes the value of the PHY for the number of its bit in the supported PHYs: LE 2M, which is bit 1 for a
  configuration, is bit 2 there. A controller with LE 2M and without LE 2M 2BT refuses LE 2M.
* C107 (what is advertised is what was configured): a refused LE Set Extended Advertising Enable that lists several sets changes the addresses of the sets before the one it is refused for (le_advertiser.cc 966-1088), even of a set that is enabled: from then on the set advertises with a newly generated address. `C107_on_air_violated`; `C107_on_air_partial` covers all other histories.
* C109 (the pause of a periodic scan): a scan with a duration and a period listens all the time. Packets are reported between the end of the duration and the end of the period (`C109_period_violated`).
* C109 (the PHY of a scan): a scan on the LE Coded PHY only reports legacy packets, which are sent on the LE 1M PHY (`C109_coded_violated`). Active scanning asked for on one PHY makes the controller send scan requests on the other, where passive scanning was asked for (`C109_passive_violated`).
* C110 (reports need a scan): the packets of an advertiser the host is synchronized with are dropped when no extended scan goes on (le_controller.cc 5207), and the host is not told that the synchronization is lost (`C110_scan_violated`).
* C110 (lost synchronizations): nothing calls `LeSynchronization` (le_controller.cc 6306-6321), so that a synchronization is never lost, whatever timeout the host gave, and may not be asked for again (`C110_lost_violated`).
* C110 (disabled reports): the option to start with reports disabled is accepted and has no effect (`C110_disabled_violated`).
* C111 (addresses never in use): a scanner or initiator whose own address type is public or random generates a local resolvable private address for the peer nevertheless (le_controller.cc 4578, 4728, 4996 and 5144: before one is chosen), and LE Read Local Resolvable Address gives it although it was never used (`C111_unused_violated`).
* C112 (directed scannable sets): a set directed to a peer in the resolving list gets a generated private address as its target (le_advertiser.cc, LE Set Extended Advertising Enable), and the resolved address of the scanner is compared with this target (le_controller.cc 6040-6110), so the peer is never answered (`C112_directed_violated`).
* C112 (scan request notification): the parameter is stored (le_advertiser.cc 565), but no LE Scan Request Received event is ever sent (`C112_notified_violated`).
* C115 (reason): a link that is lost for the reason 0 (success), which the peer chooses, makes the controller report the streams being created on it with a CIS Established event of status success although there is no stream. Proved as `C115_reason_violated`; the theorems are for other reasons.
* C115 (told twice): if both ends disconnect a stream at the same time, the central's host gets a second Disconnection Complete event for it, and the handle is unknown from then on although the group that has it is still configured: LE Create CIS for it is refused with Unknown Connection. Proved as `C115_told_violated`; `C115_told_partial` leaves out the peer's LL_CIS_TERMINATE_IND.
* C116 (crossing): if both hosts end a stream at the same time and the central creates it again at once, the peripheral's LL_CIS_TERMINATE_IND ends the new attempt on the central only. The answer to it is later taken for that to a request for another stream, so that each end has a stream the other does not have. Proved as `C116_cross_violated`.
* C116 (giving up): if the central's host disconnects a stream being created and creates it again while LL_CIS_RSP is on its way, the answer is taken for that to the second request and only the central has the stream. Proved as `C116_cancel_violated`.
* C116 (two commands): a second LE Create CIS is accepted while the request of the first waits for its answer (only queued requests are considered, iso.rs 1057). LL_CIS_RSP does not name a stream and is given to the first waiting stream in iteration order, so the two ends may end up with different streams. Proved as `C116_two_violated`. The theorems of C116 have the suffix `_partial` because they are for hosts that avoid these three situations.
* C117 (data before the connection): voice data is accepted from the host, and handed to it, on the handle of a synchronous connection that is still being requested, which the host was never told (bredr_controller.cc SendScoToRemote and IncomingScoPacket look up the handle only). Proved as `C117_send_violated` and `C117_receive_violated`; the theorems have the suffix `_partial`.
* C117 (refusal): a ScoConnectionResponse with an error status ends the first synchronous connection with the device even if it is open (bredr_controller.cc:1824-1884); the host gets a Synchronous Connection Complete event with the error and the handle 0, and no Disconnection Complete. Proved as `C117_refusal_violated`; the theorems assume that devices refuse only what was asked (`Fair`).
* C117 (iteration order): `HasPendingScoConnection` looks at the first synchronous connection with the device in the iteration order of an `std::unordered_map`. If an open one comes before a requested one, the host's answer to the request is refused with Command Disallowed. Proved as `C117_order_violated`; the model iterates over the newest connection first, so the theorems hold for that order only when a device has several synchronous connections.
* C108 (new controller): `current_iac_lap_list_` is empty when a controller is constructed (bredr_controller.h:386) and only Reset puts the general access code into it, so a controller whose host did not begin with Reset answers no inquiry although it is discoverable. `Ctl.fresh` has the empty list, the host's book in `SpecWish` too; shown as `C108_new_violated`.
* C118 (what is left of the past): a connection that was rejected before Reset has its rejection sent, and reported, at the next tick after it (the tasks are not cancelled; `C118_reject_violated`); data that was handed over is still acknowledged (`C118_credit_violated`); the host's support of channel sounding is not cleared (`C118_sounding_violated`). The theorems wait for one tick, and leave that feature out.
* C118 (not as new): a controller that was reset answers inquiries and a new one does not (`C118_inquiry_violated`); it has an empty name and a new one has the one of the device (`C118_name_violated`); with the quirk `has_default_random_address` a new one has a random address and one that was reset has none (`C118_random_address_violated`). Each part is a machine of its own here: that the one Reset command reaches all of them is the list of calls in dual_mode_controller.cc `Reset`, which is modelled in `Flow` for the links only. The requested PHYs (`requested_tx_phys_`) and partly received isochronous data (`iso_sdu_`) are not part of these machines and are not cleared by the code.
* C119 (crossing ends): when both hosts end a synchronous connection at once and one of them asks for a new one, the old ScoDisconnect cancels the new request at the asking device only; the other host keeps an offer that nobody made (bredr_controller.cc IncomingScoDisconnect removes whatever entry the device has). Proved as `C119_crossing_violated`; `C119_agree_partial` assumes hosts that do not end a connection while the other's end is on its way, that do not reset or end the link itself, and links that are not lost.
* C119 (accepting for the other): Accept Synchronous Connection Request on an own, outgoing request opens the connection and sends the other device a positive response, which opens it there too, though its host did not answer (bredr_controller.cc AcceptSynchronousConnection looks at the address only). Proved as `C119_consent_violated`.
* C121 (second connection): the packet that ends a connection has only the two addresses. When the initiator asks for a second connection while it has one and both end the first, the end of the initiator removes the second connection of the advertiser; the initiator keeps one that the advertiser does not have (le_controller.cc IncomingDisconnectPacket): `C121_second_violated`.
* C121 (reset): a controller that is reset while its connection request is on its way tells nobody; the advertiser accepts and keeps the connection (le_controller.cc Reset; IncomingLeConnectCompletePacket ignores the acceptance without an answer): `C121_reset_violated`.
* C121 (crossing): two devices that both advertise and initiate get two connections; when one of them is ended each device removes a different one: `C121_crossing_violated`.
* C124 (short): the label `complete` of CsrVendorCommand writes `parameters[1]` and `parameters[2]` whatever the length: without parameters, or with one or two octets, that is outside of the vector (dual_mode_controller.cc 3217-3220): `C124_short_violated`.
* C124 (assertions): a read of the build identifier, of the key lengths or of the version with a value that is too short, and a write of fewer than eight octets of features, fail an `ASSERT` and end the process: `C124_abort_violated`. A count of words of 0x8005 is taken for 5: `C124_wrap_violated`.
* C125 (order): HCI Disconnect is answered last: Disconnection Complete is sent by the controller that has the connection, from within the call whose result is the status (dual_mode_controller.cc 2128-2134): `C125_order_violated`.
* C71 (unused): Set Min Encryption Key Size, LE Create BIG and LE Terminate BIG are implemented, but their bits are not among the supported commands of a default controller, so they are answered as unknown commands: `C71_unused`.
