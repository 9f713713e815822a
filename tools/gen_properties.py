import json
P=[]
def p(id,title,statement,quantifier,why,anchors):
    P.append(dict(id=id,title=title,statement=statement,quantifier=quantifier,why_tests_cant=why,anchors=anchors))
p("C01","H4 stream parsing is independent of how the byte stream is cut up",
 "When a byte stream that is a concatenation of well-formed H4 packets (command, ACL, SCO, event, ISO, each with any legal payload length) is fed to the parser in arbitrary pieces, each no longer than what the parser asked for, the packet callbacks are invoked exactly once per packet, in order, on the callback of the right packet type, with exactly the packet's bytes (without the type octet), and the parser ends ready for a new packet type octet.",
 "all packet sequences, all payload lengths allowed by the length fields (8, 12 and 16 bits) and all ways of cutting the stream into reads",
 "the number of ways of cutting a stream is exponential in its length; a test exercises a handful of cut points",
 ["model/hci/h4_parser.cc:H4Parser::Consume","model/hci/h4_parser.cc:H4Parser::BytesRequested","model/hci/h4_parser.cc:HciGetPacketLengthForType","model/hci/h4_parser.cc:H4Parser::OnPacketReady","model/hci/h4_data_channel_packetizer.cc:H4DataChannelPacketizer::OnDataReady"])
p("C02","H4 recovery resynchronises on the first HCI Reset and on nothing else",
 "With recovery enabled, after an unknown packet type octet the parser calls no callback until the byte sequence 01 03 0C 00 has appeared in the stream; at the end of its first occurrence it delivers exactly one HCI command 03 0C 00 and resumes normal parsing with the next byte. In particular an occurrence preceded by a partial match (01 01 03 0C 00, 01 03 01 03 0C 00 ...) is not missed.",
 "all byte sequences received while in recovery",
 "finding the first occurrence for every possible garbage prefix is a statement about all strings; tests use one or two garbage strings",
 ["model/hci/h4_parser.cc:H4Parser::Consume","model/hci/h4_parser.cc:H4Parser::EnableRecovery"])
p("C03","The H4 parser never stalls and never aborts on a transport that respects its requests",
 "In every state reachable by feeding pieces no longer than requested, the parser requests at least one byte; with recovery enabled no input makes it abort; with recovery disabled it aborts only on an unknown packet type octet. A read of zero or fewer bytes leaves the parser unchanged.",
 "all reachable parser states and all inputs",
 "reachability over unbounded input histories",
 ["model/hci/h4_parser.cc:H4Parser::Consume","model/hci/h4_parser.cc:H4Parser::BytesRequested"])
p("C04","Bluetooth device addresses survive the text form",
 "Formatting an address and parsing the text gives the same address back; every parsed string has length 17 and six colon-separated two-character fields; formatting a parsed canonical string returns it in lower case; parsing into an existing object leaves it alone if the string is invalid, as documented.",
 "all 2^48 addresses and all strings",
 "2^48 addresses and unboundedly many strings",
 ["lib/hci/address.cc:Address::ToString","lib/hci/address.cc:Address::FromString","include/hci/address.h"])
p("C05","Connection handles are unique, of the right kind, and allocation terminates unless the range is full",
 "Over any history of BR/EDR, LE and SCO connections being created, accepted and disconnected, two live connections never share a handle, every live handle lies in the range reserved for its kind (ACL 0x000-0x0FF, SCO 0x100-0x1FF, LE 0x200-0x2FF), and the search for a free handle returns as long as fewer than 256 handles of that kind are live.",
 "all histories of connection handler operations",
 "the allocation cursor wraps around, so collisions show up only after hundreds of operations in a specific interleaving",
 ["model/controller/acl_connection_handler.cc:AclConnectionHandler::GetUnusedHandle","model/controller/acl_connection_handler.cc:AclConnectionHandler::CreateConnection","model/controller/acl_connection_handler.cc:AclConnectionHandler::Disconnect","model/controller/connection_handle.h"])
p("C06","Disconnecting a handle removes exactly that connection",
 "Disconnecting a live handle removes that connection and no other and reports success; disconnecting an unknown handle changes nothing and reports failure; lookups by handle and by address agree with the set of live connections.",
 "all reachable connection tables and all handles",
 "unbounded histories; the table is shared by three kinds of connection",
 ["model/controller/acl_connection_handler.cc:AclConnectionHandler::Disconnect","model/controller/acl_connection_handler.cc:AclConnectionHandler::HasHandle","model/controller/acl_connection_handler.cc:AclConnectionHandler::GetHandleOnlyAddress"])
p("C07","Negotiated (e)SCO link parameters respect what the host asked for",
 "Whenever a synchronous connection request yields link parameters, the packet type chosen is one the host allowed, the transmission interval is even and between 2 and 254 slots, the retransmission window fits in the interval and in the requested latency, the packets carry the requested bandwidth, and no other admissible choice has a smaller window/interval ratio; when it yields none, no admissible choice exists. Negotiating against a peer's parameters succeeds only when both sides' constraints are met.",
 "all bandwidths, latencies, packet type masks and retransmission efforts",
 "the parameter space is about 2^90",
 ["model/controller/sco_connection.cc:ScoConnectionParameters::GetLinkParameters","model/controller/sco_connection.cc:ScoConnectionParameters::IsExtended","model/controller/sco_connection.cc:ScoConnection::NegotiateLinkParameters"])
p("C08","A cancelled asynchronous task does not run afterwards",
 "Once cancelling a task (or all tasks of a user) has returned, that task is never invoked again, and cancelling affects no task of another user.",
 "all interleavings of the scheduler thread with scheduling and cancelling calls, over any number of task ids",
 "depends on thread schedules and on wrap-around of 16-bit task identifiers",
 ["model/setup/async_manager.cc:AsyncManager::AsyncTaskManager::CancelAsyncTask","model/setup/async_manager.cc:AsyncManager::AsyncTaskManager::CancelAsyncTasksFromUser","model/setup/async_manager.cc:AsyncManager::AsyncTaskManager::ThreadRoutine"])
p("C09","The asynchronous scheduler runs tasks in deadline order, one-shot tasks at most once, and never early",
 "Every invocation happens strictly after the task's deadline; invocations at one point in time happen in deadline order; a one-shot task is invoked at most once; live task identifiers are unique and non-zero.",
 "all histories of schedule, cancel and clock ticks",
 "unbounded histories and identifier wrap-around",
 ["model/setup/async_manager.cc:AsyncManager::AsyncTaskManager::scheduleTask","model/setup/async_manager.cc:AsyncManager::AsyncTaskManager::ThreadRoutine"])
p("C10","Device/phy membership stays symmetric in the test model",
 "Over any history of adding and removing devices and phys and attaching/detaching devices, a device lists a phy exactly when that phy lists the device, removed devices and phys are listed nowhere, and identifiers are never reused.",
 "all histories of test-channel operations",
 "unbounded histories, pointer aliasing between the two tables",
 ["model/setup/test_model.cc:TestModel::AddDevice","model/setup/test_model.cc:TestModel::RemoveDevice","model/setup/test_model.cc:TestModel::AddDeviceToPhy","model/setup/test_model.cc:TestModel::RemoveDeviceFromPhy","model/setup/test_model.cc:TestModel::RemovePhy","model/setup/phy_device.cc:PhyDevice::Register","model/setup/phy_layer.cc:PhyLayer::Register"])
p("C11","A transmitted packet reaches every other device on the phy exactly once, and never its sender",
 "A packet sent by a device on a phy of a given type is delivered exactly once to every other device attached to a phy of this type the sender is attached to, never to the sender and never to devices attached only to other phys.",
 "all reachable topologies and all packets",
 "topology is unbounded",
 ["model/setup/phy_layer.cc:PhyLayer::Send","model/setup/phy_device.cc:PhyDevice::Send"])
p("C12","Generated device addresses are pairwise distinct",
 "Every HCI device added without an explicit address gets a non-empty address different from those of all devices present, as long as one is free.",
 "all histories of device creation and removal",
 "needs tens of thousands of devices to observe a failure",
 ["model/setup/test_model.cc:TestModel::GenerateBluetoothAddress","model/setup/test_model.cc:TestModel::AddHciConnection"])
p("C13","The PCAP filter preserves lengths and removes user data",
 "For every packet, the filtered packet has the same length; ACL, SCO and ISO payloads become all zero while headers are unchanged; device names in GAP data are replaced in full so no byte of the original name survives, while other fields and all type and length octets are unchanged.",
 "all packets of every type and length",
 "information-flow property over all payloads",
 ["lib/hci/pcap_filter.cc:PcapFilter::FilterHciPacket","lib/hci/pcap_filter.cc:PcapFilter::FilterGapData","lib/hci/pcap_filter.cc:PcapFilter::FilterAclData"])
p("C14","Device name pseudonyms are consistent and distinguishable",
 "The same name is always replaced by the same pseudonym within a session and two different names of the same length get different pseudonyms.",
 "all sequences of names",
 "relational property over unbounded sessions",
 ["lib/hci/pcap_filter.cc:PcapFilter::ChangeDeviceName","lib/hci/pcap_filter.cc:generate_device_name"])
p("C15","Link-layer packets survive the socket whatever the read sizes",
 "A sequence of length-prefixed link-layer packets written by a peer is delivered to the phy unchanged, once each and in order, however the socket splits the bytes into reads, and no read is made past the end of the receive buffer.",
 "all packet sequences and all read-size schedules",
 "partial reads are timing dependent",
 ["model/devices/link_layer_socket_device.cc:LinkLayerSocketDevice::Tick","model/devices/link_layer_socket_device.cc:LinkLayerSocketDevice::ReceiveLinkLayerPacket"])
p("C16","The baseband header check is the standard CRC of the header",
 "The header error check computed by the sniffer equals the remainder of the header polynomial modulo the generator, seeded by the UAP; it is affine in the header bits, so any single-bit header error changes it.",
 "all UAPs and all 10-bit headers",
 "2^18 combinations and an algebraic law",
 ["model/devices/baseband_sniffer.cc:HeaderErrorCheck","model/devices/baseband_sniffer.cc:BuildBtPacketHeader","model/devices/baseband_sniffer.cc:ReverseByte"])
p("C17","LE filter accept list, resolving list and periodic advertiser list commands implement bounded sets",
 "Over any history of commands each list never exceeds its configured size; after a successful Add the entry is present; after a successful Remove it is absent; after Clear the list is empty; failing commands change nothing; and the list is never modified while an active procedure uses it.",
 "all command histories",
 "unbounded histories",
 ["model/controller/le_controller.cc:LeController::LeAddDeviceToFilterAcceptList","model/controller/le_controller.cc:LeController::LeRemoveDeviceFromFilterAcceptList","model/controller/le_controller.cc:LeController::LeAddDeviceToResolvingList","model/controller/le_controller.cc:LeController::LeRemoveDeviceFromResolvingList","model/controller/le_controller.cc:LeController::LeAddDeviceToPeriodicAdvertiserList","model/controller/le_controller.cc:LeController::FilterAcceptListBusy"])
p("C18","Legacy and extended advertising commands cannot be mixed between resets",
 "Between two resets the controller never accepts both a legacy and an extended advertising/scanning/initiating command: once one kind has been accepted, every command of the other kind fails with Command Disallowed and changes nothing.",
 "all command histories",
 "history property",
 ["model/controller/le_controller.h:LeController::SelectLegacyAdvertising","model/controller/le_controller.h:LeController::SelectExtendedAdvertising"])
p("C19","Every enabled advertising set can be transmitted",
 "In every reachable state each enabled advertising set has properties the transmitter understands (the fatal branch of the advertising loop is unreachable), advertising and scan response data that fit the limits of its PDU type, and the number of sets never exceeds the supported number.",
 "all histories of advertising commands and clock ticks",
 "the fatal branch is guarded by validation spread over eight commands whose order is arbitrary",
 ["model/controller/le_advertiser.cc:LeController::LeSetExtendedAdvertisingParameters","model/controller/le_advertiser.cc:LeController::LeSetExtendedAdvertisingData","model/controller/le_advertiser.cc:LeController::LeSetExtendedScanResponseData","model/controller/le_advertiser.cc:LeController::LeSetExtendedAdvertisingEnable","model/controller/le_advertiser.cc:LeController::LeAdvertising"])
p("C20","Fragmented advertising data is reassembled exactly",
 "For any sequence of Set Extended Advertising Data operations (first, intermediate, last, complete, unchanged) the stored data equals the concatenation of the accepted fragments since the last first/complete, incomplete data is never advertised, and rejected commands leave the stored data alone, except that data outgrowing the supported length is discarded.",
 "all fragment sequences",
 "unbounded sequences of operations",
 ["model/controller/le_advertiser.cc:LeController::LeSetExtendedAdvertisingData","model/controller/le_advertiser.cc:LeController::LeSetExtendedScanResponseData","model/controller/le_advertiser.cc:LeController::LeSetPeriodicAdvertisingData"])
p("C21","Advertising reports split large data without loss",
 "An extended or periodic advertising payload of any size is delivered as a non-empty series of reports whose data fields concatenate to the payload, none longer than the maximum, with exactly the last one marked complete.",
 "all payloads",
 "all lengths and contents",
 ["model/controller/le_controller.cc:LeController::ScanIncomingLeExtendedAdvertisingPdu","model/controller/le_controller.cc:LeController::IncomingLePeriodicAdvertisingPdu"])
p("C22","Accepted connection parameters satisfy the supervision timeout rule",
 "Whenever LE Create Connection, LE Extended Create Connection, LE Connection Update or a connection parameter reply is accepted, every parameter is in its legal range, minimum does not exceed maximum, and the supervision timeout is larger than (1 + latency) * interval_max * 2.",
 "all parameter values",
 "about 2^80 parameter combinations and unit conversions",
 ["model/controller/le_controller.cc:LeController::LeCreateConnection","model/controller/le_controller.cc:LeController::LeExtendedCreateConnection","model/controller/le_controller.cc:LeController::LeRemoteConnectionParameterRequestReply"])
p("C23","Scan parameters are accepted exactly when legal, and used on the PHY they were given for",
 "Scan parameter commands succeed exactly when the controller is idle, the PHY mask names supported PHYs, one parameter set is given per PHY and each window/interval pair is legal; afterwards each scanned PHY uses the parameters the host listed for it.",
 "all parameter values",
 "large parameter space with positional encoding",
 ["model/controller/le_controller.cc:LeController::LeSetScanParameters","model/controller/le_controller.cc:LeController::LeSetExtendedScanParameters"])
p("C24","Connection subrating keeps link timing legal and cannot be used to crash the peer",
 "A subrate request or indication is accepted only if factor, latency, continuation number and supervision timeout are mutually consistent, and no link-layer PDU sent by a peer can abort the controller.",
 "all parameter values and all incoming PDUs",
 "arithmetic over all values; adversarial input",
 ["model/controller/le_controller.cc:LeController::LeSubrateRequest","model/controller/le_controller.cc:LeController::IncomingLlSubrateReq","model/controller/le_controller.cc:LeController::IncomingLlSubrateInd"])
p("C25","Isochronous SDUs survive HCI fragmentation end to end",
 "An SDU of any size sent by one host over a CIS as any sequence of HCI fragments is delivered to the other host as a sequence of HCI ISO packets whose payloads concatenate to the SDU with well-formed boundary flags, independently of traffic on other CISes.",
 "all SDU sizes, all fragmentations, all interleavings of several streams",
 "interleavings and sizes are unbounded",
 ["model/controller/le_controller.cc:LeController::HandleIso","model/controller/le_controller.cc:LeController::IncomingLeConnectedIsochronousPdu"])
p("C26","CIS and BIS connection handles are unique and in range",
 "Over any history of CIG/BIG configuration, CIS requests from peers, removals and disconnections, two CISes never share a handle, all CIS handles lie in 0xE00-0xEFE and BIS handles in 0xD00-0xDFE, and allocation fails only when the range is exhausted.",
 "all histories",
 "unbounded histories of local and remote operations",
 ["rust/src/llcp/iso.rs:IsoManager::new_cis_connection_handle","rust/src/llcp/iso.rs:IsoManager::new_bis_connection_handle","rust/src/llcp/iso.rs:IsoManager::hci_le_set_cig_parameters","rust/src/llcp/iso.rs:IsoManager::ll_cis_req"])
p("C27","Configuring a CIG is all-or-nothing",
 "A Set CIG Parameters command either fails and leaves every CIG and CIS unchanged, or succeeds and returns one handle per listed CIS in order, keeps the handles of already configured CISes, and does not disturb other CIGs.",
 "all states and all commands",
 "state space unbounded",
 ["rust/src/llcp/iso.rs:IsoManager::hci_le_set_cig_parameters","rust/src/llcp/iso.rs:IsoManager::hci_le_remove_cig"])
p("C28","The ISO interval chosen for a CIG is a common multiple that meets the latency limits",
 "For unframed CIGs the ISO interval is a multiple of 1.25 ms and of both SDU intervals; for framed CIGs it is the smallest multiple of 1.25 ms not below the SDU interval; no legal command makes the computation overflow or abort.",
 "all SDU intervals",
 "2^40 pairs, overflow behaviour",
 ["rust/src/llcp/iso.rs:IsoManager::iso_interval","rust/src/llcp/iso.rs:IsoManager::cis_transport_latency"])
p("C29","Every CIS that a host asked to create is eventually reported established or failed",
 "After LE Create CIS is accepted, for each listed CIS the host receives exactly one CIS Established (or the CIS' termination is reported) once the peers have answered or the underlying links are gone; requests are made one at a time in order.",
 "all interleavings of peer responses, link losses and host commands",
 "liveness over unbounded interleavings",
 ["rust/src/llcp/iso.rs:IsoManager::hci_le_create_cis","rust/src/llcp/iso.rs:IsoManager::deque_cis_connection_request","rust/src/llcp/iso.rs:IsoManager::remove_acl_connection","rust/src/llcp/iso.rs:IsoManager::ll_cis_rsp"])
p("C30","Both ends of a CIS are told the same parameters",
 "The CIS Established events given to the Central's and the Peripheral's hosts for one CIS carry the same burst numbers, flush timeouts, PDU sizes, NSE and ISO interval for each direction.",
 "all CIG configurations",
 "relational property over all configurations",
 ["rust/src/llcp/iso.rs:IsoManager::ll_cis_ind","rust/src/llcp/iso.rs:IsoManager::ll_cis_rsp"])
p("C31","Event masks are honoured bit by bit",
 "An event is sent exactly when its bit in the corresponding mask is set; LE events additionally need the LE Meta event bit; setting or clearing one bit affects only that event.",
 "all masks and all event codes",
 "2^64 masks",
 ["model/controller/le_controller.cc:LeController::IsEventUnmasked","model/controller/le_controller.cc:LeController::IsLeEventUnmasked"])
p("C32","Generated resolvable private addresses are well formed and resolve to their owner",
 "Every generated resolvable private address has the RPA type bits, a random part that is neither all zeros nor all ones, and is resolved by the IRK that generated it, for any block cipher; the controller therefore recognises a peer it knows the IRK of.",
 "all IRKs and random values",
 "2^150 inputs",
 ["model/controller/le_controller.cc:generate_rpa","include/hci/address_with_type.h:AddressWithType::IsRpaThatMatchesIrk","model/controller/le_controller.cc:LeController::ResolvePrivateAddress"])
p("C33","Pairing key exchange gives both devices the same Diffie-Hellman key",
 "For any two private keys, when each device derives the shared key from its own private key and the public key octets the other transmitted, both obtain the same key.",
 "all pairs of private keys",
 "2^512 key pairs; failures depend on the sign and size of intermediate values",
 ["rust/src/lmp/ec.rs:PrivateKey::derive","rust/src/lmp/ec.rs:PrivateKey::shared_secret","rust/src/lmp/ec.rs:Point"])
p("C34","Two devices running the pairing procedures reach the same verdict",
 "When an initiator and a responder run the authentication and pairing procedures against each other, for any IO capabilities, OOB flags, authentication requirements and user answers, both procedures finish and agree: either both hosts get a successful Simple Pairing Complete and the same link key type, or both get a failure.",
 "all capabilities and user decisions on both sides, all message schedules",
 "the scripted tests run one side against a fixed trace",
 ["rust/src/lmp/procedure/secure_simple_pairing.rs:initiate","rust/src/lmp/procedure/secure_simple_pairing.rs:respond","rust/src/lmp/procedure/authentication.rs"])
p("C35","Every HCI command routed to the link manager is answered",
 "Every HCI command handed to the link manager is answered by exactly one command complete/status event, no later than the removal of the link it belongs to, and no command makes the manager abort.",
 "all histories of commands, LMP packets and link events",
 "history property",
 ["rust/src/lmp/manager.rs:LinkManager::ingest_hci","rust/src/lmp/manager.rs:LinkManager::remove_link","rust/src/lmp/manager.rs:LinkManager::add_link"])
p("C36","A connection is only completed for the attempt that is pending",
 "LE Connection Complete as initiator is reported only if a connection attempt is pending and the response comes from the device that was addressed and is directed to the address used for the attempt; after a successful cancel no connection is reported.",
 "all histories of commands and incoming packets",
 "depends on races between cancel and in-flight responses",
 ["model/controller/le_controller.cc:LeController::IncomingLeConnectCompletePacket","model/controller/le_controller.cc:LeController::LeCreateConnectionCancel"])
p("C37","Link-layer traffic is only accepted over an existing connection",
 "A link-layer packet that belongs to a connection is processed only if a connection between exactly that source and destination exists; any other such packet has no effect on the controller.",
 "all packets and states",
 "all packets and states",
 ["model/controller/le_controller.cc:LeController::IncomingPacket"])
p("C38","The controller's internal task queue runs tasks in order, never early, and cancellation is final",
 "Tasks scheduled on the controller run in order of their due time and never before it, one-shot tasks run exactly once, and a cancelled task does not run again.",
 "all histories of scheduling, cancelling and ticks, including cancelling from inside a callback",
 "unbounded histories",
 ["model/controller/le_controller.cc:LeController::ScheduleTask","model/controller/le_controller.cc:LeController::SchedulePeriodicTask","model/controller/le_controller.cc:LeController::CancelScheduledTask","model/controller/le_controller.cc:LeController::RunPendingTasks"])
p("C39","Periodic advertising synchronisation handles are unique and syncs match what was requested",
 "Every established periodic sync has its own handle and corresponds to the advertiser the host asked for; at most one sync per advertiser/SID exists.",
 "all histories of create/cancel/terminate commands and received advertising PDUs",
 "history property",
 ["model/controller/le_controller.cc:LeController::LePeriodicAdvertisingCreateSync","model/controller/le_controller.cc:LeController::IncomingLePeriodicAdvertisingPdu","model/controller/le_controller.cc:LeController::LePeriodicAdvertisingTerminateSync"])
p("C40","Channel sounding channel maps are validated",
 "A channel classification or configuration is accepted only if it enables at least 15 channels and none of the channels 0, 1, 23, 24, 25, 77, 78, 79 that the specification excludes.",
 "all 2^80 channel maps",
 "2^80 maps",
 ["model/controller/le_controller.cc:LeController::LeCsCreateConfig","model/controller/le_controller.cc:LeController::LeCsSetChannelClassification"])
p("C41","A channel sounding peer cannot abort the controller",
 "No sequence of channel sounding PDUs from a connected peer makes the controller abort, and a configuration removed or terminated by one side is removed or terminated on the other.",
 "all PDU sequences",
 "adversarial histories",
 ["model/controller/le_controller.cc:LeController::IncomingLlCsConfigReq","model/controller/le_controller.cc:LeController::IncomingLlCsReq","model/controller/le_controller.cc:LeController::IncomingLlCsTerminateReq"])
p("C42","Test channel commands and responses are framed correctly",
 "A command written as name plus any number of arguments (each at most 255 bytes) is decoded to exactly the same name and arguments, and a response of any length up to the limit is framed with its exact little-endian length.",
 "all names and arguments",
 "all byte strings",
 ["model/setup/test_channel_transport.cc:TestChannelTransport::OnCommandReady","model/setup/test_channel_transport.cc:TestChannelTransport::SendResponse"])
p("C43","No LE command crashes the controller",
 "Every LE advertising, scanning, initiating, list or privacy command with any parameters a host can encode is answered with a status; none leads to undefined behaviour or an abort.",
 "all reachable states and all commands with all parameter values",
 "the parameter space times the reachable states is unbounded",
 ["model/controller/le_advertiser.cc:LeController::LeSetExtendedAdvertisingEnable","model/controller/le_controller.cc:LeController"])
p("C44","A rejected LE command has no other effect",
 "An LE advertising, scanning, initiating, list or privacy command answered with an error leaves the observable state of the controller as it was.",
 "all reachable states and all rejected commands",
 "all commands in all states",
 ["model/controller/le_advertiser.cc","model/controller/le_controller.cc:LeController"])
p("C45","Isochronous commands and PDUs do not abort the controller",
 "No sequence of isochronous HCI commands, control PDUs from peers and link losses makes the controller terminate abnormally.",
 "all histories of commands with legal and illegal parameters, PDUs and link changes",
 "a single unusual parameter or order among unboundedly many ends the process",
 ["rust/src/llcp/iso.rs:IsoManager","rust/src/llcp/manager.rs:LinkLayer","model/controller/le_controller.cc:LeController::IncomingLlcpPacket"])
p("C46","A limited advertising set ends",
 "An advertising set enabled with a duration or a maximum number of events stops within the limit: it is disabled, the host receives exactly one LE Advertising Set Terminated event for it, and no advertising PDU of it is sent afterwards (its periodic train, which has a command of its own, may go on).",
 "all enabled sets, all durations and event limits, all schedules of ticks",
 "the number of ticks is unbounded and ticks can be late",
 ["model/controller/le_advertiser.cc:LeController::LeAdvertising"])
p("C47","Test channel commands do exactly what they say",
 "Every command on the test channel with a known name and well-formed arguments performs exactly the operation it names on the device or phy it names and is answered exactly once; any other command is answered and changes nothing; no command ends the process.",
 "all states of the simulation, all command names and argument lists, all histories of commands",
 "the space of argument strings and of simulation states is unbounded",
 ["model/setup/test_command_handler.cc:TestCommandHandler::HandleCommand","model/setup/test_model.cc:TestModel"])
p("C48","The simulation timer ticks exactly while it is started",
 "Between start_timer and the next stop_timer or reset there is exactly one periodic tick, with the period set last; at all other times there is none.",
 "all histories of test channel commands",
 "the property is about the whole history of commands",
 ["model/setup/test_model.cc:TestModel::StartTimer","model/setup/test_model.cc:TestModel::StopTimer","model/setup/test_model.cc:TestModel::SetTimerPeriod"])
p("C49","Advertising reports follow the scanner's filter policy",
 "An advertising PDU is reported to the host exactly if the controller scans on the PDU's channel type, the filter policy, with private addresses resolved, lets it through, and it is not a suppressed duplicate.",
 "all states, filter lists, resolving lists and PDUs",
 "the four policies interact with arbitrary lists and keys",
 ["model/controller/le_controller.cc:LeController::ScanIncomingLeLegacyAdvertisingPdu","model/controller/le_controller.cc:LeController::ScanIncomingLeExtendedAdvertisingPdu"])
p("C50","Duplicate filtering suppresses exactly the repetitions",
 "With duplicate filtering a reported advertising PDU is not reported again before the host restarts scanning or, if asked for, the scan period ends; a PDU that was not received since scanning started is never suppressed.",
 "all histories between two receptions of the same PDU",
 "unbounded histories",
 ["model/controller/le_controller.cc:LeController::ScanIncomingLeLegacyAdvertisingPdu","model/controller/le_controller.h:Scanner"])
p("C51","An active scanner asks each advertiser once, from the chosen address",
 "A scan request is sent exactly for reported scannable PDUs while scanning is active and no request to the advertiser is pending; it goes to the advertiser from the own address the host chose, and no PDU makes the scanner fail.",
 "all reachable states and all PDUs",
 "all states and PDUs",
 ["model/controller/le_controller.cc:LeController::ScanIncomingLeLegacyAdvertisingPdu","model/controller/le_controller.cc:LeController::ScanIncomingLeExtendedAdvertisingPdu"])
p("C52","Scan responses are reported once, and only to the scanner that asked",
 "A scan response is reported only if it answers a scan request of this controller; over any history there are no more reported responses of an advertiser than requests to it.",
 "all histories of commands, PDUs and timer ticks",
 "history property",
 ["model/controller/le_controller.cc:LeController::IncomingLeScanResponsePacket"])
p("C53","The initiator requests exactly the connections the host wants",
 "A connect request is sent exactly if a connection is being created, none was requested yet, and a connectable PDU of a wanted device is received; it has the own address and the parameters the host gave, and no PDU makes the initiator fail.",
 "all states and all PDUs",
 "filter policies, directed PDUs and private addresses interact",
 ["model/controller/le_controller.cc:LeController::ConnectIncomingLeLegacyAdvertisingPdu","model/controller/le_controller.cc:LeController::ConnectIncomingLeExtendedAdvertisingPdu"])
p("C54","Both ends of an LE connection agree",
 "An advertiser accepts a connect request exactly if it is connectable, has the requested address and lets the device connect; it then stops, both ends have one connection with swapped addresses, the same parameters and opposite roles, and data sent on one end is delivered unaltered on the other. There is at most one connection between two devices.",
 "all states of the two controllers, all requests and data",
 "two controllers in arbitrary states",
 ["model/controller/le_controller.cc:LeController::IncomingLeConnectPacket","model/controller/le_controller.cc:LeController::IncomingLeConnectCompletePacket","model/controller/le_controller.cc:LeController::HandleAcl"])
p("C55","Scanning lasts as long as the host asked",
 "A scan with a duration stops at the first tick after the duration and the host is told; a scan without one does not stop; between the duration and the period of a periodic scan nothing is reported.",
 "all durations, periods, tick schedules and interleaved events",
 "ticks can be late and anything can happen between them",
 ["model/controller/le_controller.cc:LeController::LeScanning","model/controller/le_controller.cc:LeController::LeSetExtendedScanEnable"])
p("C56","A peer's public key cannot abort pairing",
 "Whatever octets a peer sends as its public key, computing the shared key with any private key succeeds or reports an error; it does not abort the controller.",
 "all public key octets and all private keys",
 "the failing private keys are chosen at random on each run",
 ["rust/src/lmp/ec.rs:PrivateKey::shared_secret","rust/src/lmp/ec.rs:Point::to_affine","rust/src/lmp/procedure/secure_simple_pairing.rs:receive_public_key"])
p("C57","Both ends of an encrypted link are told the same cipher",
 "When encryption of a BR/EDR link between two emulated devices is requested by one host or by both, both devices finish, and each host gets one Encryption Change per request, on both sides with AES-CCM if and only if both hosts and both controllers support Secure Connections.",
 "all feature sets on both sides, all message schedules",
 "the outcome depends on how feature exchanges of concurrent procedures interleave",
 ["rust/src/lmp/procedure/encryption.rs:initiate","rust/src/lmp/procedure/encryption.rs:respond","rust/src/lmp/procedure/features.rs:supported_on_both_page"])
p("C58","Authentication requested from both ends at once still concludes",
 "When both hosts of a BR/EDR link request authentication at about the same time, on every schedule both requests come to an end, with an Authentication Complete event for each.",
 "all message schedules, with or without stored keys",
 "needs races between two devices",
 ["rust/src/lmp/procedure/authentication.rs:initiate","rust/src/lmp/procedure/authentication.rs:respond","rust/src/lmp/procedure/mod.rs:run"])
p("C59","The two ends of a connection agree on its timing",
 "Once no link-layer PDU is on its way between the two controllers of an LE connection, both hold the same connection interval, latency, supervision timeout and subrate parameters, and these are a legal combination.",
 "all sequences of host commands at both ends and all message schedules",
 "needs every history and interleaving of two controllers",
 ["model/controller/le_controller.cc:LeController::LeConnectionUpdate","model/controller/le_controller.cc:LeController::LeRemoteConnectionParameterRequestReply","model/controller/le_controller.cc:LeController::IncomingLeConnectionParameterUpdate","model/controller/le_controller.cc:LeController::IncomingLlSubrateInd"])
p("C60","Both sides of a connection agree on channel sounding configurations",
 "A channel sounding configuration created for both controllers is, once the PDUs have been delivered, held by both with the same settings and opposite roles, or by neither; a configuration both support is not refused, and both hosts are told the same settings.",
 "all settings, capabilities and states of the two controllers",
 "needs all states of two controllers",
 ["model/controller/le_controller.cc:LeController::LeCsCreateConfig","model/controller/le_controller.cc:LeController::IncomingLlCsConfigReq","model/controller/le_controller.cc:LeController::IncomingLlCsConfigRsp"])
p("C61","A channel sounding procedure starts only with the peer's consent and with security",
 "A host is told that a channel sounding procedure is enabled only if the peer holds the configuration and has not refused the procedure, and channel sounding security was enabled on an encrypted connection.",
 "all PDUs of the peer and all histories",
 "needs all histories of two controllers",
 ["model/controller/le_controller.cc:LeController::IncomingLlCsReq","model/controller/le_controller.cc:LeController::IncomingLlCsRsp","model/controller/le_controller.cc:LeController::IncomingLlCsInd","model/controller/le_controller.cc:LeController::LeCsSecurityEnable"])
p("C62","Each BR/EDR connection attempt is answered exactly once",
 "After an accepted Create Connection the host gets exactly one Connection Complete event for the attempt, at the latest at the page timeout; there is no such event without an attempt except for connections the host accepts; and until then the device is paged.",
 "all histories of commands, packets and ticks, all page timeouts",
 "needs every interleaving of the attempt with cancellation, timeout, answers and incoming requests",
 ["model/controller/bredr_controller.cc:BrEdrController::CreateConnection","model/controller/bredr_controller.cc:BrEdrController::Paging","model/controller/bredr_controller.cc:BrEdrController::IncomingPageResponsePacket","model/controller/bredr_controller.cc:BrEdrController::IncomingPageRejectPacket"])
p("C63","Answering a BR/EDR connection request leaves the device connectable",
 "When a device with page scan on is paged by a device it is not connected with, its host is told of the request; once the host has accepted or rejected it, the next page leads to a new request.",
 "all states and all histories after the answer",
 "that nothing ever reconnects is a statement about all later histories",
 ["model/controller/bredr_controller.cc:BrEdrController::IncomingPagePacket","model/controller/bredr_controller.cc:BrEdrController::AcceptConnectionRequest","model/controller/bredr_controller.cc:BrEdrController::RejectConnectionRequest"])
p("C64","Two BR/EDR devices agree on their connection and roles",
 "Once no packet is on its way between two devices, each is connected with the other or neither is; if they are, one is the central and the other the peripheral. An idle device can connect to a scanning one.",
 "all histories of the two hosts and all schedules of the packets between them",
 "disagreement needs a packet to cross a command or a timeout at the right moment",
 ["model/controller/bredr_controller.cc:BrEdrController::IncomingPagePacket","model/controller/bredr_controller.cc:BrEdrController::IncomingPageResponsePacket","model/controller/bredr_controller.cc:BrEdrController::MakePeripheralConnection","model/controller/bredr_controller.cc:BrEdrController::SwitchRole","model/controller/bredr_controller.cc:BrEdrController::IncomingDisconnectPacket"])
p("C65","No host command or peer packet makes the BR/EDR controller fail",
 "Whatever commands the host sends and whatever packets arrive, the BR/EDR controller neither aborts nor loops for ever nor reads outside its arrays.",
 "all histories of commands, packets, timers and ticks",
 "the failing histories are rare combinations of commands and packets",
 ["model/controller/bredr_controller.cc:BrEdrController::IncomingPacket","model/controller/bredr_controller.cc:BrEdrController::Disconnect","model/controller/acl_connection_handler.cc:AclConnectionHandler::Disconnect","rust/src/lmp/manager.rs:LinkManager::add_link"])
p("C66","Both ends agree on a synchronous connection",
 "When a synchronous connection is requested over a connection and the peer's host has accepted or rejected it, both hosts are told the same outcome: either both have a connection with the same link type, interval, window and air mode, where the one receives what the other sends, or neither has one. Its data arrives unchanged, and when one host ends it both are told.",
 "all parameters of the two hosts and all histories before",
 "the parameters are chosen by one device and used by two; the combinations are too many to test",
 ["model/controller/bredr_controller.cc:BrEdrController::SetupSynchronousConnection","model/controller/bredr_controller.cc:BrEdrController::AcceptSynchronousConnection","model/controller/bredr_controller.cc:BrEdrController::IncomingScoConnectionRequest","model/controller/bredr_controller.cc:BrEdrController::IncomingScoConnectionResponse","model/controller/acl_connection_handler.cc:AclConnectionHandler::AcceptPendingScoConnection"])
p("C67","A BR/EDR inquiry finds the discoverable devices and ends once",
 "An accepted inquiry is sent until its time is over or the host cancels it, and the host is told exactly once of its end, not before. It reports exactly the devices that are discoverable with its access code, with what they say about themselves, and not more of them than the host asked for.",
 "all histories of commands, packets and ticks",
 "the end must come exactly once in every history",
 ["model/controller/bredr_controller.cc:BrEdrController::Inquiry","model/controller/bredr_controller.cc:BrEdrController::InquiryCancel","model/controller/bredr_controller.cc:BrEdrController::IncomingInquiryPacket","model/controller/bredr_controller.cc:BrEdrController::IncomingInquiryResponsePacket"])
p("C68","BR/EDR data arrives in order, once, on the right connection",
 "What a host sends on a connection reaches the host at the other end in order, exactly once and unchanged, on that host's handle of the connection, as long as nobody ends it; every packet is acknowledged exactly once to the sending host.",
 "all histories of the two hosts and all schedules of the packets between them",
 "order and exactly-once are statements about all schedules",
 ["model/controller/bredr_controller.cc:BrEdrController::HandleAcl","model/controller/bredr_controller.cc:BrEdrController::IncomingAclPacket","model/controller/bredr_controller.cc:BrEdrController::CheckExpiringConnection"])
p("C69","What a host learns about a remote BR/EDR device is what that device says",
 "The name, features and version a host is told of a remote device are those of that device, and a request that was accepted is always answered.",
 "all devices, features pages, names and versions, all histories before",
 "tests use devices with small version numbers that are present",
 ["model/controller/bredr_controller.cc:BrEdrController::RemoteNameRequest","model/controller/bredr_controller.cc:BrEdrController::ReadRemoteVersionInformation","model/controller/bredr_controller.cc:BrEdrController::ReadRemoteExtendedFeatures","model/controller/bredr_controller.cc:BrEdrController::IncomingReadRemoteVersion"])
p("C70","Every HCI command is answered exactly once",
 "While the controller executes commands, every well-formed command is answered with exactly one Command Complete or Command Status event, which carries the command's own opcode, and the controller goes on; a malformed command has no effect but a Hardware Error event and the report of an invalid packet.",
 "all configurations, opcodes, parameters and states, all branches of all handlers",
 "there are 332 opcodes and 217 handlers with many branches; a host that gets no answer, or two, stops sending",
 ["model/controller/dual_mode_controller.cc:DualModeController::HandleCommand","model/controller/dual_mode_controller.cc:GetHciCommandHandlers","model/controller/dual_mode_controller.h:CHECK_PACKET_VIEW","model/controller/dual_mode_controller.cc:DualModeController::CsrVendorCommand","model/controller/dual_mode_controller.cc:DualModeController::ResetFailedContactCounter"])
p("C71","Every command a controller claims to support is implemented",
 "For every preset and every choice of features, each command that Read Local Supported Commands reports as supported is implemented, so that sending it does not stop the controller.",
 "all presets, all choices of the seven features, all opcodes",
 "the table of handlers and the bit masks are independent; there are 4 * 3^7 configurations",
 ["model/controller/controller_properties.cc:SupportedCommands","model/controller/controller_properties.cc:ControllerProperties::ControllerProperties","model/controller/dual_mode_controller.cc:DualModeController::HandleCommand"])
p("C72","The supported commands follow the configured features",
 "Switching a feature on in the configuration makes the controller support all commands of the feature; switching it off makes it support none of them; other commands are not affected.",
 "all presets, all choices of the seven features, all opcodes",
 "there are 4 * 3^7 configurations, and one feature may undo what another has done",
 ["model/controller/controller_properties.cc:SetSupportedCommandBits","model/controller/controller_properties.cc:ControllerProperties::ControllerProperties"])
p("C73","Reset, loopback and the Hardware Error quirk",
 "Reset is executed in every state and answered once. The local loopback is on exactly if the last Reset or Write Loopback Mode has put it on; while it is on every command but seven is sent back and has no effect, while it is off nothing is sent back. A controller with the quirk answers every command before the first Reset with a Hardware Error event. Leaving the loopback mode ends the connections that entering it has made.",
 "all histories of commands",
 "the modes are left over from any earlier command of the history",
 ["model/controller/dual_mode_controller.cc:DualModeController::HandleCommand","model/controller/dual_mode_controller.cc:DualModeController::Reset","model/controller/dual_mode_controller.cc:DualModeController::WriteLoopbackMode"])
p("C74","Both ends of an LE link agree whether it is encrypted",
 "When the central's host enables encryption, the peripheral's host is asked for the key exactly once, its answer is told to the central's host exactly once, and encryption begins, at both ends, exactly if the keys are the same; both hosts always know whether their end is encrypted.",
 "all histories of the two hosts and all schedules of packets and tasks between them",
 "agreement and exactly-once must hold for every interleaving of the hosts with the packets",
 ["model/controller/le_controller.cc:LeController::LeEnableEncryption","model/controller/le_controller.cc:LeController::LeLongTermKeyRequestReply","model/controller/le_controller.cc:LeController::LeLongTermKeyRequestNegativeReply","model/controller/le_controller.cc:LeController::IncomingLeEncryptConnection","model/controller/le_controller.cc:LeController::IncomingLeEncryptConnectionResponse"])
p("C75","Both ends of an LE link use the same PHYs, which both hosts prefer",
 "When nothing is on its way between two connected devices, what one uses to send the other uses to receive. A PHY changes only to one that the requesting host asks for and the other prefers, each accepted Set PHY is answered by an event, and a host knows the PHYs from its events. Set PHY is accepted exactly for PHYs the controller supports. No packet of the link makes a controller abort.",
 "all PHY preferences, all histories of the two hosts and all schedules of the packets",
 "procedures of both sides can cross in any order",
 ["model/controller/le_controller.cc:LeController::LeSetPhy","model/controller/le_controller.cc:LeController::LeSetDefaultPhy","model/controller/le_controller.cc:LeController::IncomingLlPhyReq","model/controller/le_controller.cc:LeController::IncomingLlPhyRsp","model/controller/le_controller.cc:LeController::IncomingLlPhyUpdateInd"])
p("C76","LE data arrives in order, once, on the right connection",
 "What a host sends on an LE connection reaches the host at the other end in order, exactly once and unchanged, on that host's handle of the connection; every packet is acknowledged exactly once to the sending host; no data makes a controller abort.",
 "all histories of the two hosts and all schedules of the packets between them",
 "order and exactly-once are statements about all schedules",
 ["model/controller/le_controller.cc:LeController::HandleAcl","model/controller/le_controller.cc:LeController::IncomingLeAclPacket"])
p("C77","What a host learns about the peer of an LE link is what the peer says",
 "Each request for the features or the version of the peer is answered exactly once, with the features, version, company and subversion of the peer.",
 "all devices, all histories of the two hosts and all schedules of the packets",
 "tests use devices with small version numbers and one request at a time",
 ["model/controller/le_controller.cc:LeController::LeReadRemoteFeatures","model/controller/le_controller.cc:LeController::IncomingLeReadRemoteFeaturesResponse","model/controller/le_controller.cc:LeController::ReadRemoteVersionInformation","model/controller/le_controller.cc:LeController::IncomingReadRemoteVersion"])
p("C78","The advertising filters of a host are the ones it has set, and each has its own conditions",
 "A host adds and deletes advertising packet content filters and conditions of seven kinds. Each command is answered with the status and the number of free places that follow from the filters and conditions it has set; deleting a filter deletes its conditions and no others; a command with an unknown filter changes nothing. Malformed commands are refused.",
 "all controllers (all numbers of filters and conditions below 256) and all histories of filter commands",
 "the tables fill up, and conditions of several filters are mixed, only after long histories; tests add a few filters",
 ["model/controller/vendor_commands/le_apcf.cc:ApcfScanner","model/controller/vendor_commands/le_apcf.cc:LeController::LeApcfAddFilteringParameters","model/controller/vendor_commands/le_apcf.cc:ApcfScanner::UpdateFilterList","model/controller/dual_mode_controller.cc:DualModeController::LeApcf"])
p("C79","What a host writes to a configuration parameter is what it reads",
 "A command that reads a parameter answers the value of the last write of this parameter that the controller accepted since the last Reset, or the default of the specification. This holds for the parameters of the controller, of its connections (link policy), and for the features that the host switches on and off; writing one parameter changes no other.",
 "all controllers, all states before a Reset, all histories of reads, writes, resets, connections and disconnections",
 "a parameter that is mixed up with another, or is not reset, is seen only by particular histories",
 ["model/controller/dual_mode_controller.cc:DualModeController::ReadInquiryMode","model/controller/dual_mode_controller.cc:DualModeController::WritePageScanActivity","model/controller/bredr_controller.cc:BrEdrController::Reset","model/controller/le_controller.cc:LeController::Reset","model/controller/le_controller.cc:LeController::LeSetHostFeature","model/controller/bredr_controller.cc:BrEdrController::WriteCurrentIacLap"])
p("C80","What is put in a packet is what is read from it",
 "For every packet that is declared in the packet description files: if the values fit (each number its field, each length its length field), then the octets that are written are read back as the same values and the same payload, and two different contents are never written the same way. Whatever octets are accepted, the values read from them fit, and writing and reading them again changes nothing; if the packet has no reserved bits and no padding, the octets written are the octets read. A packet of fixed size can be written with any values in the range of its fields.",
 "all 870 declared packets, all values, all payloads, all octet strings",
 "a layout error that reader and writer share, or a length that does not fit its field, is seen only by particular values",
 ["packets/hci_packets.pdl","packets/link_layer_packets.pdl","packets/bredr_bb_packets.pdl","rust/lmp_packets.pdl","rust/llcp_packets.pdl"])
p("C81","A packet is not mistaken for another one",
 "Octets that are accepted as one declared packet are not accepted as another packet of the same family (HCI commands, HCI events, link layer packets, LMP, LLCP), unless one of the two packets is derived from the other.",
 "all pairs of packets of each family, all octet strings",
 "two of several hundred packets may have the same codes, and the tests parse only what was built as the same packet",
 ["packets/hci_packets.pdl","packets/link_layer_packets.pdl","packets/bredr_bb_packets.pdl","rust/lmp_packets.pdl","rust/llcp_packets.pdl"])
p("C82","Between the host and its controller nothing is lost, reordered or invented",
 "The packets that the controller handles are exactly those that the host has written to its socket, in order, however the octets are cut into reads. What the host reads is the packets the controller has sent, in order, each with its type. Once a socket is closed nothing more is delivered in either direction, the device is removed, and nothing happens to it afterwards. No host input ends the process.",
 "all controllers, all networks, all histories of reads, ticks, sent packets and removals, all ways to cut the stream",
 "the cuts and the points of failure are a matter of the schedule",
 ["model/hci/hci_socket_transport.cc:HciSocketTransport","model/hci/h4_data_channel_packetizer.cc","model/devices/hci_device.cc:HciDevice","model/controller/dual_mode_controller.cc"])
p("C83","The HCI trace is a capture file of what went over the HCI",
 "The trace of a device is a valid pcap file of link type 201 in which there is one record for each packet between the host and the controller, in order, with its direction, type, octets and time; with a filter it is what the filter leaves of it.",
 "all histories of all devices, all clocks",
 "the file is read by other programs, after sessions of any length",
 ["model/hci/hci_sniffer.cc:HciSniffer::AppendRecord","model/hci/hci_sniffer.cc:HciSniffer::SetPcapFilter","include/pcap.h"])
p("C84","Packets that are built are framed",
 "Any sequence of declared HCI packets with values that fit, written with their type octets and cut into reads in any way, is read as the same packets with the same values.",
 "all declared HCI packets, all values and payloads, all sequences, all cuts",
 "builders, framing and views are tested apart from each other",
 ["packets/hci_packets.pdl","model/hci/h4_parser.cc:H4Parser::Consume"])
p("C85","The baseband trace tells who paged and what the link managers said",
 "The file of the baseband sniffer is a valid pcap file of link type 255 with one record for each page and each packet of a link manager on the air, in order: an FHS packet with the address and class of device of the sender, or a DM1 packet that carries the packet of the link manager. No packet on the air ends the process.",
 "all sequences of octet strings on the air, all clocks",
 "the records are read by other programs; long and cut off packets are rare",
 ["model/devices/baseband_sniffer.cc:BaseBandSniffer::ReceiveLinkLayerPacket","model/devices/baseband_sniffer.cc:BaseBandSniffer::AppendRecord"])
p("C86","A beacon advertises at its interval and answers scan requests",
 "A beacon transmits at a tick exactly if its interval has passed since it last transmitted. What it transmits is a non-connectable advertisement with its current address and its name. It answers scan requests.",
 "all intervals, addresses and histories of ticks, received packets and changes of the address",
 "it is a statement about all sequences of times",
 ["model/devices/beacon.cc:Beacon::Tick","model/devices/beacon.cc:Beacon::ReceiveLinkLayerPacket"])
p("C87","A controller reports the features its configuration asks for",
 "Whatever the preset and whatever the configuration says of the nine features that it may turn on and off, the controller reports an LE feature exactly if the configuration turns it on, or says nothing of it and the preset has it; everything else it reports is that of the preset, and the PHYs it accepts in commands are those it reports.",
 "all presets, all configurations, all feature bits",
 "there are 19683 configurations of each preset, and each must change its own bits and no other",
 ["model/controller/controller_properties.cc:ControllerProperties::ControllerProperties","model/controller/controller_properties.cc:SetLLFeatureBit","model/controller/controller_properties.h:LeSupportedPhys","proto/rootcanal/configuration.proto:ControllerFeatures"])
p("C88","Features that contradict each other are reported",
 "When a controller is made, a warning is logged exactly if its features of the link manager are not as the specification allows: reserved bits for the version, mandatory and forbidden features, and features that need or exclude others. The presets are consistent.",
 "all versions, all feature masks, all presets and configurations",
 "the rules are about combinations of 128 bits",
 ["model/controller/controller_properties.cc:CheckSupportedFeatures"])
p("C89","Commands that contradict the features are reported",
 "When a controller is made, a message is logged for a command exactly if the command is not supported although the features of the controller make it mandatory, or supported although they exclude it, as the table of the specification says for BR/EDR and LE; and a warning if there is any such command.",
 "all controllers (features, commands, transports), all commands of the table",
 "the requirements are conditions on all feature masks, over several hundred commands",
 ["model/controller/controller_properties.cc:CheckSupportedCommands","model/controller/controller_properties.cc:check_command_requirement"])
p("C90","The presets support the commands that go with their features",
 "Whatever the preset and whatever the configuration says of the nine features, the controller supports every command that its features make mandatory and no command that they exclude.",
 "all presets, all configurations, all commands of the table",
 "each configuration changes a set of commands and a set of features which must match, and sets overlap",
 ["model/controller/controller_properties.cc:ControllerProperties::ControllerProperties","model/controller/controller_properties.cc:SetSupportedCommandBits"])
p("C91","Link supervision",
 "A connection is ended for a timeout only when nothing came from the peer for its supervision timeout, and when a call of Tick that begins after such a time returns, the connection is gone. Before that the peer is sent a ping; a peer that answers pings in time is not dropped, as long as Tick is called.",
 "all sequences of connections, packets, disconnections, tasks and calls of Tick, at all times",
 "depends on the timing of packets, checks and calls of Tick to each other, over histories of any length",
 ["model/controller/le_controller.cc:LeController::CheckExpiringConnection","model/controller/bredr_controller.cc:BrEdrController::CheckExpiringConnection","model/controller/le_acl_connection.cc:LeAclConnection::TimeUntilExpired"])
p("C92","Enhanced synchronous connections",
 "Enhanced Setup and Enhanced Accept Synchronous Connection are refused with Invalid HCI Command Parameters, without effect, exactly if the parameters break a rule of the specification. Otherwise they do what the plain commands do, both hosts are told the same outcome, with the air mode of the coding format, and a data path that is not HCI makes a spoofed stream.",
 "all parameters of the commands, all histories of two controllers before",
 "seven rules over four coding formats and six bandwidths, and the outcome depends on both hosts and the state before",
 ["model/controller/bredr_controller.cc:BrEdrController::EnhancedSetupSynchronousConnection","model/controller/bredr_controller.cc:BrEdrController::EnhancedAcceptSynchronousConnection"])
p("C93","Settings and readings of a connection",
 "A command about a connection that does not exist is refused with Unknown Connection and has no effect. Hold mode, sniff mode, flow specifications and new link keys are never accepted. Sniff subrating, quality of service, data length and link policy are accepted on a connection exactly if the parameters are in the ranges of the specification, and quality of service and packet types are answered by one event with what was asked. The link policy read is the one accepted last for the connection, at first the default; the role read is the one the last Role Change event told; the RSSI read is that of the last data received from the peer over this connection. Out of band data does not repeat in 65535 reads.",
 "all commands and parameters, all histories of a controller and its peers in between",
 "the values read depend on everything that happened to the connection, and to earlier connections with the same handle",
 ["model/controller/bredr_controller.cc:BrEdrController::WriteLinkPolicySettings","model/controller/bredr_controller.cc:BrEdrController::RoleDiscovery","model/controller/bredr_controller.cc:BrEdrController::QosSetup","model/controller/bredr_controller.cc:BrEdrController::ReadLocalOobData","model/controller/dual_mode_controller.cc:DualModeController::ReadRssi","model/controller/le_controller.cc:LeController::LeSetDataLength"])
p("C94","Credits for data",
 "At the end of every tick the host has been told, for every connection handle, exactly as many completed packets as it has handed over ACL data packets for that handle, connected or not, in the loopback mode or not. Data aborts the process exactly if it is marked as broadcast on an ACL handle outside the loopback mode. No credit outlives a Reset. Synchronous data is credited when the host has enabled synchronous flow control.",
 "all histories of data, commands, received packets, connections beginning and ending, and ticks, octet for octet",
 "a credit lost or given twice shows only after a long session, when the host stalls or overruns",
 ["model/controller/dual_mode_controller.cc:DualModeController::HandleAcl","model/controller/dual_mode_controller.cc:DualModeController::HandleSco","model/controller/bredr_controller.cc:BrEdrController::HandleAcl","model/controller/le_controller.cc:LeController::HandleAcl"])
p("C95","The local loopback",
 "In the local loopback mode every ACL and SCO data packet comes back octet for octet with its credit and nothing is sent over the air; every command comes back in one Loopback Command event, except the seven that the mode executes, which keep their meaning. The mode ends only by Write Loopback Mode or Reset.",
 "all octets of data and commands, all sessions in the mode",
 "the packets are all those a host can write, of any length",
 ["model/controller/dual_mode_controller.cc:DualModeController::HandleCommand","model/controller/dual_mode_controller.cc:DualModeController::HandleAcl","model/controller/dual_mode_controller.cc:DualModeController::HandleSco"])
p("C96","Data arrives octet for octet",
 "What a host writes to an ACL, LE or SCO connection arrives at the host of the peer as one packet on the handle that the peer has for this connection, with the same octets; only the mark of a first fragment becomes flushable. A sequence of packets arrives in order, each once.",
 "all octets of data, all handles, all sequences, all states of both controllers that share a connection",
 "the octets are read and written four times on the way, at two different layouts",
 ["model/controller/bredr_controller.cc:BrEdrController::HandleAcl","model/controller/bredr_controller.cc:BrEdrController::IncomingAclPacket","model/controller/bredr_controller.cc:BrEdrController::SendScoToRemote","model/controller/bredr_controller.cc:BrEdrController::IncomingScoPacket","model/controller/le_controller.cc:LeController::IncomingLeAclPacket"])
p("C97","No link key without the whole protocol",
 "When the host is told of a link key, the device has gone through the whole conversation of the pairing, in order, whatever the peer is: IO capabilities, both public keys in full, the commitments of the association model that the IO capabilities lay down (20 of them for a passkey), each commitment of the peer checked, the DHKey checks, and an answered challenge in both directions; none of its own packets was refused; and its own host and user agreed to what that model asks of them. The type of the key is that of the model and the curve. No key is notified before.",
 "all peers, whether they follow the protocol or not, all answers of the host, all IO capabilities, requirements and features",
 "the conversation has up to a hundred packets and the peer may send anything at each point",
 ["rust/src/lmp/procedure/secure_simple_pairing.rs:initiate","rust/src/lmp/procedure/secure_simple_pairing.rs:respond","rust/src/lmp/procedure/legacy_pairing.rs:initiate","rust/src/lmp/procedure/authentication.rs:send_challenge"])
p("C98","Watched descriptors are served, others are left alone",
 "A descriptor that is watched and stays readable has its callback called in every turn of the watcher's thread, whatever the other threads and the callbacks do; no registration is slept through. A callback is called only after select reported its descriptor, for the descriptors that are registered then, each once, in order. When a call that stops watching a descriptor has returned, the callbacks registered before are not called any more; when the watcher has been stopped, no callback is. Registering and stopping never end the process nor have undefined behaviour.",
 "all interleavings of the watcher's thread, its callbacks and any number of other threads, all descriptors, all results of select",
 "the order of critical sections of several threads cannot be chosen in a test",
 ["model/setup/async_manager.cc:AsyncManager::AsyncFdWatcher"])
p("C99","Every client of the desktop program is served",
 "Each client that connects to a port for controllers gets one controller of its own, in the order of arrival: a device that was never there before, put on every phy of that time, with nothing else changed. A port is never deaf after its first client. The controller of a client that left is removed with the next tick; the device of one that stays is not removed unless a tester asks for it. One tester is heard at a time, the others are sent away, and an answer goes to the one who asked. The threads never use the simulated world at the same time; ending the simulation is the only way a tester ends the process; stopping the timer stops time. The simulation begins with one phy of each type and two beacons on the one for low energy.",
 "all numbers of configured controllers, all histories of clients that come, send commands and leave, all interleavings of the main thread, the watcher and the task thread",
 "clients come and go at any moment of three threads, and the order cannot be chosen in a test",
 ["desktop/test_environment.cc:TestEnvironment::initialize","desktop/test_environment.cc:TestEnvironment::SetUpTestChannel","model/setup/test_model.cc:TestModel::AddHciConnection","model/setup/test_model.cc:TestModel::OnConnectionClosed","model/setup/test_channel_transport.cc:TestChannelTransport::OnCommandReady"])
p("C100","When a device leaves, the others are told",
 "When the host of a device closes its transport, every device that has a connection with it is sent the end of each synchronous connection between them and then the end of the connection, all with the reason 0x15, and nobody else is sent anything. A device that has a connection with it loses exactly its connections with it, its host is told of each of them once with that reason, and nothing else changes; a device without such a connection does not notice. The same holds for LE connections, per pair of addresses.",
 "all pairs of reachable states of the device that leaves and of the one that stays, all arrival times of the packets",
 "what is lost depends on every table of two controllers at the moment one of them disappears",
 ["model/controller/dual_mode_controller.cc:DualModeController::Close","model/controller/bredr_controller.cc:BrEdrController::DisconnectAll","model/controller/le_controller.cc:LeController::DisconnectAll","model/controller/bredr_controller.cc:BrEdrController::IncomingDisconnectPacket","model/controller/bredr_controller.cc:BrEdrController::IncomingScoDisconnect"])
p("C101","Refused commands have the right error code and no effect",
 "Which commands of a classic host are refused, and with which error code of the Core Specification, is decided by a table over what the host can know: running inquiries and attempts, waiting requests, connections and their handles. A refused command changes nothing, sends nothing and causes no event; every other command that returns has the status success. A silent connection is ended with the reason connection timeout after three seconds and pinged after one and a half; a cancelled attempt is reported as unknown connection; a page that the host does not want to hear of is rejected with connection timeout; a second voice request is refused as exceeding the limit; an accepted voice request on which the sides cannot agree ends for both.",
 "all states of a classic controller, all commands and parameters",
 "the code of a refusal depends on the whole state, and the claim that nothing else happens is about every component of it",
 ["model/controller/bredr_controller.cc:BrEdrController::CreateConnection","model/controller/bredr_controller.cc:BrEdrController::AcceptConnectionRequest","model/controller/bredr_controller.cc:BrEdrController::SetupSynchronousConnection","model/controller/bredr_controller.cc:BrEdrController::SwitchRole","model/controller/bredr_controller.cc:BrEdrController::CheckExpiringConnection"])
p("C102","Every socket descriptor has one owner and callbacks reach it",
 "At every moment the descriptors that are open are exactly those of the live sockets, each of one socket: none leaks, none is closed twice, none is used after it was closed, and when the last socket is gone nothing is open. The watcher knows the descriptors of exactly the watched sockets; a callback runs only for a live socket whose owner asked for it, and never after the socket stopped watching, was closed or destroyed. A server gives one client at a time to its callback, as a new socket, and no other before it is told to listen again. A server that cannot be made and a connection that fails keep nothing open, and the caller can tell.",
 "all histories of servers, connectors and sockets, all results of the calls of the operating system",
 "leaks, double closes and late callbacks depend on the order of operations and on rare failures of the operating system",
 ["net/posix/posix_async_socket.cc:PosixAsyncSocket::Close","net/posix/posix_async_socket.cc:PosixAsyncSocket::WatchForNonBlockingRead","net/posix/posix_async_socket.cc:PosixAsyncSocket::StopWatching","net/posix/posix_async_socket_server.cc:PosixAsyncSocketServer::AcceptSocket","net/posix/posix_async_socket_server.cc:PosixAsyncSocketServer::StartListening","net/posix/posix_async_socket_connector.cc:PosixAsyncSocketConnector::ConnectToRemoteServer"])
p("C103","Channel sounding commands are refused for the stated reasons only",
 "For each channel sounding command there is a list of reasons to refuse it, each with its error code of the Core Specification; the first that applies is the status the host gets. A refused command changes nothing, sends nothing to the peer and causes no event. A command to which no reason applies succeeds, stores what it says, asks the peer exactly what it has to and reports at once what is known already.",
 "all states of an LE controller, all channel sounding commands and parameters",
 "some twenty conditions on parameters, capabilities of both sides and the state are tested in a fixed order",
 ["model/controller/le_controller.cc:LeController::LeCsCreateConfig","model/controller/le_controller.cc:LeController::LeCsSetProcedureParameters","model/controller/le_controller.cc:LeController::LeCsSetDefaultSettings","model/controller/le_controller.cc:LeController::LeCsWriteCachedRemoteFaeTable"])
p("C104","A channel sounding request of the peer is answered once, with the stated code",
 "For each channel sounding PDU of the peer there is a list of reasons to refuse it, each with its error code; the first that applies is the code of the answer, nothing changes and the host hears nothing. A PDU to which no reason applies is carried out: what the controller then keeps, what it sends back, field by field, and which events its host gets are fixed by a table. Every request is answered exactly once, by an answer of its kind, unless the controller aborts (C41 says when).",
 "all states of an LE controller, all channel sounding PDUs",
 "the answer depends on the configuration, the capabilities, the key and the masks of the receiving side, for PDUs a local host cannot produce",
 ["model/controller/le_controller.cc:LeController::IncomingLlCsConfigReq","model/controller/le_controller.cc:LeController::IncomingLlCsReq","model/controller/le_controller.cc:LeController::IncomingLlCsSecurityReq","model/controller/le_controller.cc:LeController::IncomingLlCsTerminateReq"])
p("C105","Isochronous commands are refused for the stated reasons only",
 "For each isochronous command there is a list of reasons to refuse it, each with its error code of the Core Specification; the first that applies is the status the host gets, and nothing else happens. A command to which no reason applies is carried out, and its answers are those of a table. Creating streams asks the peer at once for the first of them, with exactly the parameters the group and the stream were given; the controller aborts precisely if these do not fit the request. When the peer agrees, both sides report the stream with these parameters and the latencies that follow from them, or abort if a value does not fit the event. The loss of a connection is told for each stream on it and each request waiting for it, with the code of the loss.",
 "all states of the isochronous manager, all commands and parameters, all reasons of a loss",
 "the order of some thirty tests over groups, streams, paths and broadcasts decides the code",
 ["rust/src/llcp/iso.rs:hci_le_set_cig_parameters","rust/src/llcp/iso.rs:hci_le_create_cis","rust/src/llcp/iso.rs:hci_le_setup_iso_data_path","rust/src/llcp/iso.rs:hci_le_create_big","rust/src/llcp/iso.rs:remove_acl_connection"])
p("C106","LE commands are refused for the stated reasons only",
 "For each LE command about addresses, lists, scanning, initiating, advertising and periodic advertising there is a list of reasons to refuse it, in terms of the ranges and rules of the Core Specification and of what the controller is doing, each with its error. In every state the status of the command is the error of the first reason that holds, and success if none does.",
 "all states, all LE commands with all parameters, lists of any length",
 "about eighty conditions, their order and their error codes for arbitrary states; lists of sets and PHYs of any length",
 ["model/controller/le_controller.cc:LeController::LeSetExtendedScanParameters","model/controller/le_controller.cc:LeController::LeExtendedCreateConnection","model/controller/le_advertiser.cc:LeController::LeSetExtendedAdvertisingParameters","model/controller/le_advertiser.cc:LeController::LeSetExtendedAdvertisingEnable","model/controller/le_controller.cc:LeController::LeAddDeviceToResolvingList"])
p("C107","What is advertised is what the host configured, when it asked for it",
 "From the commands the controller accepted and the connections and resets that followed, a host can foretell everything the controller advertises: at each tick the legacy advertiser and every advertising set send the PDU of the accepted parameters, with the public, random or generated address asked for, the peer it is directed to and the data of the last accepted fragments, exactly when the configured interval since the last PDU (legacy) or k intervals since enabling (sets, periodic trains) have passed; sets end after their duration or number of events, high duty cycle advertising after 1.28 s; nothing else is sent and refused commands change nothing on air.",
 "all histories of commands, connections, address generations, ticks and resets; all clocks, all random numbers",
 "every refused or accepted command may have changed any of some thirty fields that reach the air much later",
 ["model/controller/le_advertiser.cc:LeController::LeAdvertising","model/controller/le_advertiser.cc:LeController::LeSetAdvertisingParameters","model/controller/le_advertiser.cc:LeController::LeSetAdvertisingEnable","model/controller/le_advertiser.cc:LeController::LeSetExtendedAdvertisingParameters","model/controller/le_advertiser.cc:LeController::LeSetExtendedAdvertisingEnable","model/controller/le_advertiser.cc:LeController::LeSetPeriodicAdvertisingEnable"])
p("C108","A Classic device shows itself as its host wished",
 "From its commands and the events it got, a host can foretell how its device answers others: inquiries are answered exactly if the inquiry scan was enabled for their access code and not disabled or reset since, with the class of device and inquiry response last written; pages reach the host only if the page scan is enabled; the name and features asked for are those last written; a request to switch roles is accepted exactly if the link policy last written for the connection, or the default policy at the time it was made, allows it. A device that was never configured, or was reset, is hidden and refuses.",
 "all histories of commands, packets, ticks and expiry checks of a controller; all senders, access codes, formats and handles",
 "any of the commands and packets between the configuration and the request could have changed what is answered",
 ["model/controller/bredr_controller.cc:BrEdrController::IncomingInquiryPacket","model/controller/bredr_controller.cc:BrEdrController::IncomingPagePacket","model/controller/bredr_controller.cc:BrEdrController::IncomingRoleSwitchRequest","model/controller/bredr_controller.cc:BrEdrController::WriteLinkPolicySettings","model/controller/bredr_controller.cc:BrEdrController::WriteDefaultLinkPolicySettings","model/controller/bredr_controller.cc:BrEdrController::Reset"])
p("C109","The controller scans and initiates as its host asked",
 "From its commands and the events it got, a host can foretell what the controller does with each advertising packet: it is reported exactly if a scan goes on (was started, not stopped, and its duration has not passed) on the PHYs of the packet, the filter policy lets the device behind the address through (given the filter accept list, the resolving list and the own addresses set last), and it is not a duplicate the host wanted filtered; it is answered with a scan request exactly if it is scannable, reported, active scanning was asked for and no answer is awaited; a scan response is reported exactly if it answers such a request in time; a connect request is sent exactly if the host asked for a connection with that device, did not cancel it, and none was sent before, with the parameters and own address the host gave.",
 "all histories of commands, packets and ticks of a controller; all advertising packets and scan responses; all times",
 "any of the commands, packets and ticks between the configuration and the packet could have changed what is done with it",
 ["model/controller/le_controller.cc:LeController::ScanIncomingLeLegacyAdvertisingPdu","model/controller/le_controller.cc:LeController::ScanIncomingLeExtendedAdvertisingPdu","model/controller/le_controller.cc:LeController::ConnectIncomingLeLegacyAdvertisingPdu","model/controller/le_controller.cc:LeController::ConnectIncomingLeExtendedAdvertisingPdu","model/controller/le_controller.cc:LeController::IncomingLeScanResponsePacket","model/controller/le_controller.cc:LeController::LeScanning"])
p("C110","The controller follows periodic advertisers as its host asked",
 "From its commands and the events it got, a host can foretell what a packet of a periodic advertiser leads to. While an extended scan goes on: if the host waits for a synchronization (it asked for one and neither cancelled it nor was told that it is established) with the device behind the packet, or with one on the periodic advertiser list, the synchronization is established, with the smallest free handle; otherwise each handle it was told for this device and advertising set, and has not terminated, is reported the whole data of the packet once, in pieces of at most 247 bytes, and nothing else is reported. Reports go on until the host terminates the synchronization or is told that it is lost, and are left out if the host asked so.",
 "all histories of commands, packets and ticks of a controller; all periodic advertising packets; all times",
 "any of the commands, packets and ticks between the request and the packet could have changed what is done with it",
 ["model/controller/le_controller.cc:LeController::IncomingLePeriodicAdvertisingPdu","model/controller/le_controller.cc:LeController::LePeriodicAdvertisingCreateSync","model/controller/le_controller.cc:LeController::LePeriodicAdvertisingCreateSyncCancel","model/controller/le_controller.cc:LeController::LePeriodicAdvertisingTerminateSync","model/controller/le_controller.cc:LeController::LeSynchronization"])
p("C111","The host reads the private addresses in use with a peer",
 "With LE Read Peer Resolvable Address the host reads the address a listed peer last used: if anything came of a packet whose sender's address is explained by the key of a peer (the first in the list), that address is read from then on; no packet of another device changes it; it is there until the peer is taken from the list, the list is cleared or the controller is reset. With LE Read Local Resolvable Address the host reads the address last made for the peer: when a scan request or a connect request is sent to it, one made of the local key for this peer; only such packets, starting to advertise and creating a connection change it.",
 "all histories of commands, packets and ticks of a controller; all packets; all peers",
 "whose address is read depends on the whole history of the list and on every packet since",
 ["model/controller/le_controller.cc:LeController::ResolvePrivateAddress","model/controller/le_controller.cc:LeController::GenerateResolvablePrivateAddress","model/controller/le_controller.cc:LeController::LeReadPeerResolvableAddress","model/controller/le_controller.cc:LeController::LeReadLocalResolvableAddress"])
p("C112","The controller answers scan and connect requests as its host asked",
 "At every point of every history, what the host has asked for and was told decides which scan requests its advertisers answer, with which data, and which connect requests they accept: a scan request is answered by each advertiser that is on with the requested address, can be scanned, lets the device behind the scanner scan and, if directed, is directed to it; a connect request is accepted by the first advertiser that is on with the requested address and lets the device connect, which then stops. As time passes the advertisers send what the host asked for, and nothing else is sent. The host is told of scan requests if it asked to be.",
 "all histories of commands, packets and time of a controller; all scan and connect requests",
 "the answer depends on the whole history of commands for the advertisers and the lists, and on the connections made since",
 ["model/controller/le_controller.cc:LeController::IncomingLeScanPacket","model/controller/le_controller.cc:LeController::IncomingLeConnectPacket","model/controller/le_controller.cc:LeController::ProcessIncomingLegacyScanRequest","model/controller/le_controller.cc:LeController::ProcessIncomingExtendedScanRequest","model/controller/le_advertiser.cc:LeController::LeAdvertising"])
p("C113","The controller acts on exactly the LE connections its host was told of",
 "The host that keeps a list of LE connections from the LE Connection Complete and Disconnection Complete events alone knows what its commands do: data sent on a handle of the list goes to the other end of that connection in one packet, unaltered, and data sent on any other handle goes nowhere, the buffer being given back once in both cases; packets from the air reach the host on a connection of the list between their addresses, or not at all; HCI Disconnect tells the other end and ends the connection exactly if it is in the list; HCI Reset tells the other ends of exactly the connections in the list; a new connection has a handle that is not in the list; and a connection that ends was in the list.",
 "all histories of commands, packets and time of a controller; all handles, packets and data",
 "the list is the result of the whole history",
 ["model/controller/le_controller.cc:LeController::HandleAcl","model/controller/le_controller.cc:LeController::IncomingPacket","model/controller/le_controller.cc:LeController::Disconnect","model/controller/le_controller.cc:LeController::DisconnectAll","model/controller/acl_connection_handler.cc:AclConnectionHandler::GetUnusedHandle"])
p("C114","The controller acts on exactly the BR/EDR connections its host was told of",
 "The host that keeps a book of its BR/EDR connections from Connection Complete, Disconnection Complete and Role Change events alone knows what its commands do: data sent on a handle of the book goes to the device in the book, on any other handle nowhere, and the credit comes back in both cases; data of a device reaches the host under the handle of the book for it, of other devices not at all; requests for features and version, role switches and HCI Disconnect reach the device in the book and are refused for handles and devices not in it; a role switch is asked for exactly if the book has the other role; HCI Reset tells exactly the devices in the book; a second connection with a device in the book is refused; there is one entry for a device and there are at most seven; and every connection told of is new and every end told of is that of an entry or of a synchronous connection.",
 "all histories of commands, packets and time of a controller in which the host does not mask the three events and nobody rejects a page with the reason success; all handles, devices and data",
 "the book is the result of the whole history",
 ["model/controller/bredr_controller.cc:BrEdrController::HandleAcl","model/controller/bredr_controller.cc:BrEdrController::IncomingAclPacket","model/controller/bredr_controller.cc:BrEdrController::Disconnect","model/controller/bredr_controller.cc:BrEdrController::SwitchRole","model/controller/bredr_controller.cc:BrEdrController::Reset","model/controller/bredr_controller.cc:BrEdrController::CreateConnection"])
p("C115","The controller acts on isochronous streams as its host knows them from commands, events and lost links",
 "A host that notes, for every handle of a connected isochronous stream, whether it asked for the stream, was offered it, has it or does not have it, and over which link, from its own accepted commands, the CIS Established, CIS Request and Disconnection Complete events and the loss of links, knows what its commands do: HCI Disconnect ends a stream it has over the link of that stream and is refused for one it does not have; LE Accept and LE Reject CIS Request are accepted exactly for the streams offered and are answered over the link of the offer; LE Create CIS is accepted only for streams it does not have and did not ask for, and is refused with Connection Already Exists for a stream it has; a CIS Established event is always the answer to a request, a CIS Request always has a new handle; a Disconnection Complete event is for a stream it has or asked for; and the loss of a link is told for exactly the streams on that link.",
 "all histories of commands, packets of the peers, links added and lost, in which no stream is removed while a request for it is queued and no link is lost for the reason success; all handles and reasons",
 "the notes are the result of the whole history",
 ["rust/src/llcp/iso.rs:IsoManager::hci_le_create_cis","rust/src/llcp/iso.rs:IsoManager::hci_le_accept_cis_request","rust/src/llcp/iso.rs:IsoManager::hci_le_reject_cis_request","rust/src/llcp/iso.rs:IsoManager::hci_disconnect","rust/src/llcp/iso.rs:IsoManager::remove_acl_connection","rust/src/llcp/iso.rs:IsoManager::ll_cis_terminate_ind"])
p("C116","Both ends of a link agree about its isochronous streams",
 "Two devices with a link between them, on which the central's host creates and ends connected isochronous streams and the peripheral's host accepts, rejects and ends them, agree: whenever no control PDU is on its way, the streams one end has over the link are those the other end has, the central waits for an answer about exactly the stream its peer's host was offered and did not answer, and the peripheral waits for nothing; at all times, a stream only one end has is one the other end has just ended or was not yet told of.",
 "all interleavings of all commands of the two hosts with the deliveries of the PDUs, all iteration orders of the tables, for hosts that do not create a stream while another creation is under way, do not give up a stream being created and do not end a stream at the same time as the other host",
 "depends on the order in which commands and deliveries interleave on two devices, and on iteration orders",
 ["rust/src/llcp/iso.rs:IsoManager::hci_le_create_cis","rust/src/llcp/iso.rs:IsoManager::ll_cis_req","rust/src/llcp/iso.rs:IsoManager::ll_cis_rsp","rust/src/llcp/iso.rs:IsoManager::ll_cis_ind","rust/src/llcp/iso.rs:IsoManager::ll_reject_ext_ind","rust/src/llcp/iso.rs:IsoManager::ll_cis_terminate_ind","rust/src/llcp/iso.rs:IsoManager::deque_cis_connection_request"])
p("C117","The controller carries voice on exactly the synchronous connections its host was told of",
 "A host that keeps a book of its synchronous (SCO and eSCO) connections and of the open requests for one, only from the commands it gives, the packets that pass by and the events it gets, knows them: voice data goes to the device of a known handle and is refused under any other, a device's data comes up under a known handle of that device, the roles cannot be switched and no second request can be made while there is voice or a request, a known connection can be ended and an open request answered, and the host is told of connections and ends only as the book expects.",
 "all histories of commands, ticks, timeouts and packets from any devices, in which the host masks neither of the two events and no device refuses a connection nobody asked it for",
 "the book is built over histories of any length with several connections and requests per device, and depends on the order of the entries of a table",
 ["model/controller/bredr_controller.cc:BrEdrController::SetupSynchronousConnection","model/controller/bredr_controller.cc:BrEdrController::AcceptSynchronousConnection","model/controller/bredr_controller.cc:BrEdrController::RejectSynchronousConnection","model/controller/bredr_controller.cc:BrEdrController::IncomingScoConnectionRequest","model/controller/bredr_controller.cc:BrEdrController::IncomingScoConnectionResponse","model/controller/bredr_controller.cc:BrEdrController::IncomingScoDisconnect","model/controller/bredr_controller.cc:BrEdrController::SendScoToRemote","model/controller/acl_connection_handler.cc:AclConnectionHandler::GetScoConnectionHandle"])
p("C118","After Reset a controller behaves as if nothing had happened before",
 "Whatever a host, the other devices and time did before, after the Reset command the answers, events and packets of a controller, to whatever follows, do not depend on it: not of the connections, pages, inquiries, roles and settings of BR/EDR, nor of the LE controller, the filters of advertising reports, the registers and the data path; and they are those of a new controller.",
 "all pairs of histories before the Reset and all histories after it, of every part of the controller",
 "two unbounded pasts are compared under every future; a member that Reset forgets to clear shows only in the one future that looks at it",
 ["model/controller/dual_mode_controller.cc:DualModeController::Reset","model/controller/bredr_controller.cc:BrEdrController::Reset","model/controller/le_controller.cc:LeController::Reset","model/controller/acl_connection_handler.cc:AclConnectionHandler::Reset"])
p("C119","Two devices agree about their voice connection whenever nothing is on its way",
 "Two devices whose hosts ask for, accept, reject and end synchronous connections with each other in any order, also at once, agree whenever no packet about it is on its way: neither has anything, or one has an open request that the other's host can answer, or both have one connection with the same parameters.",
 "all interleavings of the commands of two hosts, ticks, timeouts and packet arrivals in both directions, with hosts that answer only requests of others and do not end a connection while the other's end is on its way",
 "requests, answers and ends cross each other in unboundedly many ways; one lost or wrongly matched answer leaves a half open connection much later",
 ["model/controller/bredr_controller.cc:BrEdrController::SetupSynchronousConnection","model/controller/bredr_controller.cc:BrEdrController::AcceptSynchronousConnection","model/controller/bredr_controller.cc:BrEdrController::RejectSynchronousConnection","model/controller/bredr_controller.cc:BrEdrController::IncomingScoConnectionRequest","model/controller/bredr_controller.cc:BrEdrController::IncomingScoConnectionResponse","model/controller/bredr_controller.cc:BrEdrController::IncomingScoDisconnect","model/controller/bredr_controller.cc:BrEdrController::Disconnect"])
p("C120","An advertising report says what was received",
 "A report of a legacy or extended advertising PDU has the kind, the target, the PHYs, the set and the interval of the received PDU and names the advertiser by its identity; a directed report is sent in place of the ordinary one exactly when the scanner looks at the initiator's identity and cannot resolve the target. The report of a scan response has the kind and the PHYs of the scannable PDU because of which the last scan request was sent to that advertiser, after any history.",
 "all received PDUs and states; for scan responses, all histories of commands, packets and ticks",
 "the kind of a scan response is remembered from a PDU that was received earlier, among any other PDUs of the same and of other advertisers and requests that time out",
 ["model/controller/le_controller.cc:LeController::ScanIncomingLeLegacyAdvertisingPdu","model/controller/le_controller.cc:LeController::ScanIncomingLeExtendedAdvertisingPdu","model/controller/le_controller.cc:LeController::IncomingLeScanResponsePacket"])
p("C121","Two LE devices agree about their connection whenever nothing is on its way",
 "Let one LE device advertise and let the other connect to it, again and again, with the packets in each direction delivered in order but at any time, and let both hosts end connections, cancel attempts and change everything else as they like. Whenever no connection request, acceptance or end is on its way, neither device has a connection, or both have one, with each other: each knows the other by the address it uses, in opposite roles and with the same parameters. A device has a connection that the other does not have only while its acceptance or its end is on its way.",
 "all histories of two devices: commands, ticks, resets and deliveries in any order; all configurations and addresses, also resolvable ones",
 "needs the states of two controllers and of the packets between them, in all interleavings: a test has one controller and a tester",
 ["model/controller/le_controller.cc:LeController::IncomingLeConnectPacket","model/controller/le_controller.cc:LeController::IncomingLeConnectCompletePacket","model/controller/le_controller.cc:LeController::IncomingDisconnectPacket","model/controller/le_controller.cc:LeController::Disconnect","model/controller/le_controller.cc:LeController::ConnectIncomingLeLegacyAdvertisingPdu"])
p("C122","The talk of the controllers ends",
 "However many devices are in reach of each other, in whatever states, whatever packets are on their way and in whatever order they are delivered: as long as no host sends a command and no time passes, packets cannot be sent for ever; after finitely many deliveries nothing is on its way. A packet is answered only with the one kind of packet that answers it, to its sender; answers are not answered. This is so for scanning, connecting and ending, and for the procedures on a connection: encryption, features, versions, PHYs, connection parameters, subrating, channel sounding, isochronous streams. (The procedures of the BR/EDR link manager have their own property.)",
 "all networks of LE and BR/EDR controllers in all states, all packets, all orders of delivery, all topologies, also changing ones",
 "termination over unboundedly many devices, packets and schedules",
 ["model/controller/le_controller.cc:LeController::IncomingPacket","model/controller/le_controller.cc:LeController::IncomingLeScanPacket","model/controller/le_controller.cc:LeController::IncomingLeConnectPacket","model/controller/bredr_controller.cc:BrEdrController::IncomingPacket","model/controller/bredr_controller.cc:BrEdrController::IncomingPagePacket","model/controller/bredr_controller.cc:BrEdrController::IncomingInquiryPacket"])
p("C123","Link managers say no more than they are asked to",
 "However many devices there are, whatever links come and go, whatever their hosts command and answer, and however LMP packets are delayed, reordered or lost: all link managers together send at most 154 packets for each Authentication Requested and 14 for each Set Connection Encryption of a host. In an endless history in which hosts ask only finitely often, some packet is the last one. Both numbers are attained.",
 "all numbers of devices, all histories of host commands, links, deliveries and losses, also endless ones",
 "a bound on all histories, and termination of endless ones",
 ["rust/src/lmp/procedure/mod.rs:run","rust/src/lmp/procedure/authentication.rs","rust/src/lmp/procedure/secure_simple_pairing.rs","rust/src/lmp/procedure/encryption.rs","rust/src/lmp/manager.rs:LinkManager"])
p("C124","The CSR vendor command answers what it is asked",
 "On a controller with the CSR vendor command every such command is answered with one vendor specific event that has the parameters of the command with the action 1. A read of one of the four known values (the build, the least and greatest length of a key, the version) puts the value in. Only a write of the key of the supported features changes anything: Read Local Supported Features then returns what was written last. No such command stops the controller.",
 "all parameters, all histories of such commands",
 "all octet strings as parameters, all histories",
 ["model/controller/dual_mode_controller.cc:DualModeController::CsrVendorCommand","model/controller/dual_mode_controller.cc:DualModeController::CsrReadVarid","model/controller/dual_mode_controller.cc:DualModeController::CsrReadPskey","model/controller/dual_mode_controller.cc:DualModeController::CsrWritePskey","model/controller/vendor_commands/csr.h"])
p("C125","A handle reaches its connection",
 "On a device with a BR/EDR and an LE controller, whatever connections the two have made and lost, the table the host keeps from the events has at most one connection under a handle. HCI Disconnect with a handle of the table ends that connection and nothing else: the other end is told, the status of the command is success and then Disconnection Complete is sent once for the handle. With a handle that is not in use the status is Unknown Connection Identifier and nothing happens. Data on a handle goes to the other end of its connection and nowhere else; the credit comes back once.",
 "all interleaved histories of the two controllers, all handles, reasons and data",
 "all histories of two controllers and all handles",
 ["model/controller/dual_mode_controller.cc:DualModeController::Disconnect","model/controller/dual_mode_controller.cc:DualModeController::HandleAcl","model/controller/connection_handle.h","model/controller/bredr_controller.cc:BrEdrController::Disconnect","model/controller/le_controller.cc:LeController::Disconnect"])
p("C126","The controller does what the octets of an LE command say",
 "When the host writes one of 37 LE commands (addresses, lists, advertising, scanning, periodic advertising, creating connections) as the core specification lays it out, the controller makes the call the command describes with the same parameters, and answers with the octets of Command Complete or Command Status that carry the opcode of the command and the status of the call. Two commands that differ in a parameter the controller uses are never taken for each other, and a script of commands has the effect of the script of calls.",
 "all commands, all values of their parameters that fit the octets, all states and all scripts",
 "all values of all parameters of all commands",
 ["model/controller/dual_mode_controller.cc:DualModeController::HandleCommand","model/controller/dual_mode_controller.cc:DualModeController::LeSetExtendedAdvertisingParametersV1","packets/hci_packets.pdl","model/controller/le_controller.h"])
p("C127","The controller does what the octets of a BR/EDR command say",
 "When the host writes one of 43 commands (inquiry, connections, synchronous connections, link policy, quality of service, status, and four commands of LE connections) as the core specification lays it out, the controller makes the call the command describes with the same parameters, and answers with the octets of Command Complete or Command Status that carry the opcode of the command, the status of the call and the values it returned. Two commands that differ in a parameter the controller uses are never taken for each other, and a script of commands has the effect of the script of calls.",
 "all commands, all values of their parameters that fit the octets, all states and all scripts",
 "all values of all parameters of all commands",
 ["model/controller/dual_mode_controller.cc:DualModeController::HandleCommand","model/controller/dual_mode_controller.cc:DualModeController::SetupSynchronousConnection","model/controller/dual_mode_controller.cc:DualModeController::QosSetup","packets/hci_packets.pdl","model/controller/bredr_controller.h"])
p("C128","The host can tell from the octets what happened",
 "The events of the BR/EDR controller (connections, roles, disconnections, synchronous connections, inquiry, names, features, versions, completed packets, packet types, quality of service, transmit power) and its data are written as the core specification lays them out: a host that reads the octets by the core specification gets the event with all its values, so different events never have the same octets.",
 "all events, all values that fit their octets, all data",
 "all values of all parameters of all events",
 ["model/controller/bredr_controller.cc:send_event_","model/controller/le_controller.cc:LeController::LeReadRemoteTransmitPowerLevel","packets/hci_packets.pdl","model/hci/h4.h"])
p("C129","The host can tell from the octets what happened on LE",
 "The events of the LE controller (advertising reports of all kinds, synchronizations, connections, the end of advertising, of scanning and of connections, completed packets) and its data are written as the core specification lays them out: a host that reads the octets by the core specification learns everything the event says, so two events with the same octets say the same. The reports of an extended advertisement of any length fit their events, and the host gets the whole advertisement back from their octets.",
 "all events, all values that fit their octets, advertisements of any length",
 "all values of all parameters of all events, and data of any length cut into reports",
 ["model/controller/le_controller.cc:send_event_","model/controller/le_controller.cc:LeController::ScanIncomingLeExtendedAdvertisingPdu","model/controller/le_advertiser.cc","packets/hci_packets.pdl"])
p("C130","The controller does what the octets of a command about an LE connection say",
 "When the host writes one of 15 commands about PHYs, encryption, remote features and version, event masks, subrates and connection parameters of LE connections as the core specification lays it out, the controller makes the call the command describes with the same parameters, and answers with Command Complete or Command Status with the opcode, the status of the call and, where the host answers a request, the handle. Two commands that differ in a parameter the controller uses are never taken for each other; a script of commands has the effects of the script of calls; a timing command about a connection that is not there is answered with Unknown Connection Identifier and changes nothing.",
 "all 15 commands, all values that fit their octets, all states of the controller, scripts of any length",
 "all values of all parameters of all commands in all states, and scripts of any length",
 ["model/controller/dual_mode_controller.cc:DualModeController::LeSetPhy","model/controller/dual_mode_controller.cc:DualModeController::LeStartEncryption","model/controller/dual_mode_controller.cc:DualModeController::LeRemoteConnectionParameterRequestReply","model/controller/dual_mode_controller.cc:DualModeController::LeSubrateRequest","packets/hci_packets.pdl"])
p("C131","The host can tell from the octets what happened on an LE connection",
 "The events about PHYs, encryption, key requests, key refreshes, remote features and version, subrates, requests for connection parameters and connection updates of LE connections, their data and their completed packets are written as the core specification lays them out: a host that reads the octets by the core specification gets the event with all its values and the handle of the connection. Events with the same octets are the same, and a sequence of them is read in order.",
 "all events, all values that fit their octets, sequences of any length",
 "all values of all parameters of all events",
 ["model/controller/le_controller.cc:send_event_","model/controller/le_controller.cc:LeController::IncomingLlPhyReq","model/controller/le_controller.cc:LeController::IncomingLeEncryptConnectionResponse","model/controller/le_controller.cc:LeController::IncomingLlSubrateInd","packets/hci_packets.pdl"])
p("C132","What one LE controller sends over the air, the other receives",
 "A packet that a controller sends about an LE connection (PHYs, encryption, features, version, data, subrates, connection parameters) is received by the other controller as the same kind of packet, with its sender, its receiver and every value. Packets that differ have different octets. This holds for every packet on its way between two connected controllers, whatever commands their hosts give and in whatever order packets arrive.",
 "all packets, all values that fit their octets, all addresses, all histories of two connected controllers",
 "all values of all packets, and all histories that lead to them",
 ["model/controller/le_controller.cc:LeController::SendLeLinkLayerPacket","model/controller/le_controller.cc:LeController::IncomingPacket","packets/link_layer_packets.pdl"])
p("C133","What one BR/EDR controller sends over the air, the other receives",
 "A packet that a controller sends about pages, disconnections, role switches, synchronous connections, pings, inquiries, ACL data, names, features or versions is received by the other controller as the same kind of packet, with its sender, its receiver and every value. Packets that differ have different octets, and a sequence of packets is received as it was sent.",
 "all packets, all values that fit their octets, all addresses, sequences of any length",
 "all values of all packets",
 ["model/controller/bredr_controller.cc:BrEdrController::SendLinkLayerPacket","model/controller/bredr_controller.cc:BrEdrController::IncomingPacket","packets/link_layer_packets.pdl"])
p("C134","What an LE controller advertises, asks or answers over the air, the other receives",
 "A legacy, extended or periodic advertisement, a scan request or response, a connection request or its completion that an LE controller sends is received by the other controller as the same kind of packet, with its addresses, the types of the addresses and every value. Packets that differ have different octets, whatever the transmission powers, and a sequence of packets is received as it was sent.",
 "all packets, all values that fit their octets, all addresses, sequences of any length",
 "all values of all packets",
 ["model/controller/le_advertiser.cc:LeController::LeAdvertising","model/controller/le_controller.cc:LeController::IncomingPacket","packets/link_layer_packets.pdl"])
with open('/verif/properties.jsonl','w') as f:
    for x in P: f.write(json.dumps(x)+"\n")
print(len(P))
