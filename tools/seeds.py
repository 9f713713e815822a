import json
def M(file,d,old,new,claim,target,**k): return dict(file=f"Verif/{file}",**{"def":d},old=old,new=new,claim=claim,target=f"Verif.{target}",**k)
h4=[
 M("H4/Model.lean","lengthOffset","  | .event => 1\n  | .iso => 2\n\n/-- `preamble_size`","  | .event => 0\n  | .iso => 2\n\n/-- `preamble_size`","C01: events are cut at the wrong length","H4.Props"),
 M("H4/Model.lean","preambleSize","  | .iso => 4","  | .iso => 3","C01: ISO preamble too short","H4.Props"),
 M("H4/Model.lean","packetLength","(b1.toNat &&& 0x0f) <<< 8","b1.toNat <<< 8","C01: reserved bits of the ISO length not masked","H4.Props"),
 M("H4/Model.lean","packetLength","pure (size ||| (b1.toNat <<< 8))","pure size","C01: high byte of ACL length dropped","H4.Props"),
 M("H4/Model.lean","consumePreamble","if n = 0 then ready p else .done","if n = 0 then .done true { p with state := .type } [] else .done","C01: empty packets are swallowed","H4.Props"),
 M("H4/Model.lean","ready","[(k, p.packet)]","[(k, p.packet.drop 1)]","C01: first byte of each packet lost","H4.Props"),
 M("H4/Model.lean","kindOf","else if t = 3 then some .sco\n  else if t = 4 then some .event","else if t = 3 then some .event\n  else if t = 4 then some .sco","C01: wrong callback","H4.Props"),
 M("H4/Model.lean","consumeRecovery","(if b = 0x01 then [b] else [])","[]","C02: a reset that starts right after a false start is missed","H4.Props"),
 M("H4/Model.lean","consumeRecovery","packet := packet.drop 1, wanted := 0","packet := packet, wanted := 0","C02: reset delivered with its type byte","H4.Props"),
 M("H4/Model.lean","consumeType","if !p.recovery then .abort","if p.recovery then .abort","C03: recovery flag inverted","H4.Props"),
 M("H4/Model.lean","consumeType","hciType := 1, wanted := 1","hciType := 0, wanted := 1","C02/C03: recovered packet has no type","H4.Props"),
 M("H4/Model.lean","consumePayload","wanted := p.wanted - buf.length }\n  if p.wanted = 0 then ready p else .done true p []\n\n/-- `H4Parser::Consume`","wanted := p.wanted - 1 }\n  if p.wanted = 0 then ready p else .done true p []\n\n/-- `H4Parser::Consume`","C01: progress counted per read instead of per byte","H4.Props"),
 M("H4/Model.lean","consume","if buf.length > requested p then .abort","if buf.length ≥ requested p then .abort","C01: full reads abort","H4.Props"),
 M("H4/Model.lean","consume","| [] => .done false p []","| [] => .done false (reset p) []","C03: an empty read loses a partial packet","H4.Props"),
]
addr=[
 M("Addr/Model.lean","toString","(a.toList.reverse.map hexByte)","(a.toList.map hexByte)","C04: printed in the wrong byte order","Addr.Props"),
 M("Addr/Model.lean","hexByte","[hexDigit (b.toNat / 16), hexDigit (b.toNat % 16)]","[hexDigit (b.toNat % 16), hexDigit (b.toNat / 16)]","C04: nibbles swapped","Addr.Props"),
 M("Addr/Model.lean","hexVal","'a' ≤ c ∧ c ≤ 'f'","'a' ≤ c ∧ c < 'f'","C04: digit f refused","Addr.Props"),
 M("Addr/Model.lean","hexVal","'A' ≤ c ∧ c ≤ 'F'","'A' ≤ c ∧ c < 'F'","C04: upper-case digit F refused","Addr.Props"),
 M("Addr/Model.lean","setFromEnd","| 4 => { a with b1 := v }","| 4 => { a with b0 := v }","C04: one octet stored at the wrong index","Addr.Props"),
 M("Addr/Model.lean","parseLoop","if index ≠ 6 then none else some a","some a","C04: short addresses accepted","Addr.Props"),
 M("Addr/Model.lean","fromString","if s.length ≠ 17 then none else","if s.length < 17 then none else","C04: text longer than 17 characters accepted","Addr.Props"),
 M("Addr/Model.lean","parseField","if t.length ≠ 2 then none","if t.length > 2 then none","C04: one-digit octets accepted (the total length still has to be 17)","Addr.Props"),
 M("Addr/Model.lean","fromStringInto","| some a => (true, a)","| some a => (true, Address.empty)","C04: result not stored","Addr.Props"),
]
conn=[
 M("Conn/Model.lean","searchUnused","if last + 1 > stop then start else last + 1) fuel","last + 1) fuel","C05: cursor leaves the range","Conn.Props"),
 M("Conn/Model.lean","getUnusedHandle","some (h, if h + 1 > stop then start else h + 1)","some (h, h + 1)","C05: cursor leaves the range after the last handle","Conn.Props"),
 M("Conn/Model.lean","leStart","def leStart : Nat := 0x200","def leStart : Nat := 0x1FF","C05: LE range overlaps the SCO range","Conn.Props"),
 M("Conn/Model.lean","createLe","getUnusedHandle s.le leStart leEnd s.lastLe","getUnusedHandle s.le aclStart aclEnd s.lastAcl","C05: LE handles from the ACL range","Conn.Props"),
 M("Conn/Model.lean","createSco","getUnusedHandle s.sco scoStart","getUnusedHandle s.acl scoStart","C05: free handle looked up in the wrong table","Conn.Props"),
 M("Conn/Model.lean","createAcl","⟨addr, own, .central⟩) :: s.acl, lastAcl := last","⟨addr, own, .central⟩) :: s.acl, lastAcl := s.lastAcl","C05: cursor not advanced (freed handles reused at once)","Conn.Props"),
 M("Conn/Model.lean","disconnect","if hasSco s h then .ok true { s with sco := erase s.sco h }","if hasSco s h then .ok true { s with sco := [] }","C06: all SCO connections dropped","Conn.Props"),
 M("Conn/Model.lean","disconnect",".ok true { s with le := erase s.le h }",".ok true s","C06: LE connection not removed","Conn.Props"),
 M("Conn/Model.lean","disconnect","if (getScoHandle s c.address).isSome then .abort\n      else","","C06: dropping an ACL link under its SCO link","Conn.Props"),
 M("Conn/Model.lean","disconnect","else .ok false s","else .ok true s","C06: unknown handle reported as disconnected","Conn.Props"),
 M("Conn/Model.lean","getLeHandle","c.address.address = remote && c.own.address = loc","c.address.address = remote","C06: local address ignored in the lookup","Conn.Props"),
 M("Conn/Model.lean","setSco","if e.1 = h then (h, c) else e","(h, c)","C05: accepting a SCO connection overwrites all of them","Conn.Props"),
 M("Conn/Model.lean","cancelPendingSco","if c.stream then .abort else .ok () { s with sco := erase s.sco h }","if c.stream then .abort else .ok () s","C06: cancelled pending SCO connection stays","Conn.Props",tightened=["C06_cancel_pending_sco (added)"]),
 M("Conn/Model.lean","acceptPendingSco","setSco s.sco h { c with state := .closed }","setSco s.sco h { c with state := .opened }","C06: failed negotiation opens the connection","Conn.Props",tightened=["C06_accept_pending_sco (added)"]),
]
sco=[
 M("Sco/Model.lean","accepted","(if t &&& no2Ev3 = 0 then [⟨60, 1⟩] else [])","(if t &&& no2Ev3 ≠ 0 then [⟨60, 1⟩] else [])","C07: 2-EV3 allowed when forbidden","Sco.Props"),
 M("Sco/Model.lean","accepted","[⟨120, 3⟩]","[⟨120, 1⟩]","C07: EV4 counted as one slot","Sco.Props"),
 M("Sco/Model.lean","interval","min (m - m % 2) 254","min m 254","C07: odd intervals","Sco.Props"),
 M("Sco/Model.lean","interval","min (m - m % 2) 254","m - m % 2","C07: interval beyond 254","Sco.Props"),
 M("Sco/Model.lean","interval","(1600 * rx.length) / p.rxBandwidth.toNat","(1600 * rx.length) / p.txBandwidth.toNat","C07: receive bandwidth ignored","Sco.Props"),
 M("Sco/Model.lean","retransmission","2 * (rx.slots + tx.slots)","rx.slots + tx.slots","C07: link quality window too small","Sco.Props"),
 M("Sco/Model.lean","consider","if w * b.den ≤ b.num * i then","if b.num * i ≤ w * b.den then","C07: worst instead of best","Sco.Props"),
 M("Sco/Model.lean","valid","≤ 1000 * p.maxLatency.toNat","≤ 1250 * p.maxLatency.toNat","C07: latency exceeded","Sco.Props"),
 M("Sco/Model.lean","escoParams","txLength := packetLength p.txBandwidth","txLength := packetLength p.rxBandwidth","C07: transmit length from receive bandwidth","Sco.Props"),
 M("Sco/Model.lean","packetLength","+ 1600 - 1)","+ 0)","C07: length rounded down","Sco.Props"),
 M("Sco/Model.lean","scoFallback","if p.packetType &&& hv3 ≠ 0 then some ⟨6, 0, 30, 30","if p.packetType &&& hv3 ≠ 0 then some ⟨6, 0, 20, 20","C07: HV3 with the length of HV2","Sco.Props"),
 M("Sco/Model.lean","latency","else min peer mine","else max peer mine","C07: larger latency negotiated","Sco.Props"),
 M("Sco/Model.lean","commonTypes","((peer ||| mine) &&& 0x3c0)","((peer &&& mine) &&& 0x3c0)","C07: EDR types allowed by one side only","Sco.Props"),
 M("Sco/Model.lean","commonEffort","else if peer = effortNone ∨ mine = effortNone then none","else if peer = effortNone then none","C07: retransmissions forced on a side that refuses them","Sco.Props"),
 M("Sco/Model.lean","airMode","| 1 => 0\n  | 2 => 1","| 1 => 1\n  | 2 => 0","C07: µ-law and A-law exchanged","Sco.Props",tightened=["C07_air_mode"],note="survived at first: the theorem was stated with the model's own table"),
]
asy=[
 M("Async/Model.lean","Task.lt","(a.time = b.time && a.id < b.id)","(a.time = b.time && b.id < a.id)","C09: ties in the wrong order","Async.Props"),
 M("Async/Model.lean","nextId","if i = maxTaskId then 1 else i + 1","if i = maxTaskId then 0 else i + 1","C09: identifier 0 given out","Async.Props"),
 M("Async/Model.lean","schedule","m.now + delay, period⟩","m.now, period⟩","C09: delay ignored","Async.Props"),
 M("Async/Model.lean","cancelLocked","{ m with queue := remove t m.queue, byId := erase m.byId id }","{ m with byId := erase m.byId id }","C08: cancelled task stays in the queue","Async.Props"),
 M("Async/Model.lean","cancelUser","(fun e => e.1 ≠ user)","(fun e => e.1 = user)","C08: wrong user's records dropped","Async.Props"),
 M("Async/Model.lean","pick","if t.time < m.now then","if t.time ≤ m.now then","C09: task run at its deadline, not after","Async.Props"),
 M("Async/Model.lean","pick","queue := insert t' q, byId","queue := insert t' m.queue, byId","C09: periodic task queued twice","Async.Props"),
 M("Async/Model.lean","pick","{ t with time := t.time + p }","{ t with time := m.now + p }","C09: period counted from the late run","Async.Props"),
 M("Async/Model.lean","pick","{ m with queue := q, byUser := m.byUser.filter (fun x => x ≠ (t.user, t.id)), byId","{ m with byUser := m.byUser.filter (fun x => x ≠ (t.user, t.id)), byId","C09: one-shot task runs again","Async.Props"),
 M("Async/Model.lean","step start","log := m.log ++ [e] }","log := m.log ++ [e, e] }","C09: callback called twice","Async.Props"),
 M("Async/Model.lean","stop","{ m with byId := [], queue := [], running := false }","{ m with byId := [], running := false }","C08: stop leaves the queue","Async.Props"),
]

P="Phy/Model.lean"; PT="Phy.Props"
phy=[
 M(P,"Dev.register","if p ∈ x.phys then x else { x with phys := p :: x.phys }","{ x with phys := p :: x.phys }","C10/C11: a phy listed twice in a device","Phy.Props"),
 M(P,"unregister","{ s with devs := modDev d (Dev.unregister p) s.devs, phys := modPhy p (fun y => { y with members := y.members.filter (· ≠ d) }) s.phys }","{ s with phys := modPhy p (fun y => { y with members := y.members.filter (· ≠ d) }) s.phys }","C10: detach leaves the phy in the device",PT),
 M(P,"unregister","members := y.members.filter (· ≠ d)","members := y.members.erase d","C10: only the first of several registrations removed",PT),
 M(P,"unregisterAll","phys := modPhy p (fun y => { y with members := [] }) s.phys }","phys := s.phys }","C10: reset leaves the members",PT),
 M(P,"removeDevice","  let s := (s.phys.map (·.id)).foldl (fun s p => unregister s d p) s\n","","C10: removed device stays in its phys",PT),
 M(P,"removePhy","    let s := unregisterAll s p\n","","C10: devices keep a removed phy",PT),
 M(P,"addDeviceToPhy","s.hasPhy p && s.hasDev d","s.hasPhy p || s.hasDev d","C10: absent device attached",PT),
 M(P,"bump","(n + 1) % 2 ^ 32","n","C10: identifiers reused",PT),
 M(P,"Phy.send","y.members.filter (fun d => sender ≠ d)","y.members","C11: sender hears itself",PT),
 M(P,"send","y.id = p && y.type = t","y.id = p","C11: packet crosses to the other phy type",PT),
 M(P,"numbered","UInt8.ofNat (n / 256)","UInt8.ofNat n","C12: only 256 addresses",PT),
 M(P,"generate","search c s 65536 0","search c s 256 0","C12: search stops early",PT),
 M(P,"search","some (numbered c b)","some (numbered c (b + 1))","C12: address after the free one",PT),
 M(P,"step addHci","a.getD g)","g)","C12: requested address ignored",PT),
 M(P,"step addHci","(fun _ => true)","(· = .lowEnergy)","C10: HCI device on LE phys only",PT),
 M(P,"step addLinkLayer","(· = t)","(fun _ => true)","C10: link layer device on all phys",PT),
 M(P,"step reset","some { s with devs := [] }","some s","C10: reset keeps devices",PT),
]
Q="Pcap/Model.lean"; QT="Pcap.Props"
pcap=[
 M(Q,"generateName","List.replicate (len - (text n).length)","List.replicate (len - 1 - (text n).length)","C13: shorter name",QT),
 M(Q,"generateName","(text n).take len ++","(text n) ++","C13: longer name",QT),
 M(Q,"changeName","(m ++ [(name, n)], n)","(m, n)","C14: replacement forgotten",QT),
 M(Q,"changeName","generateName m.length name.length","generateName 0 name.length","C14: same number for all",QT),
 M(Q,"lookup","if o = name then some n else lookup m name","if o.length = name.length then some n else lookup m name","C14: names of one length confused",QT),
 M(Q,"filterGapFrom","if l.toNat + 1 > rest.length + 2 then (m, l :: t :: rest)\n","if l.toNat > rest.length + 2 then (m, l :: t :: rest)\n","C13: overlong entry processed",QT),
 M(Q,"filterAcl","s1 :: List.replicate size 0)","s1 :: payload)","C13: ACL payload in the trace",QT),
 M(Q,"filterAcl","s1 :: List.replicate size 0)","s1 :: List.replicate 0 0)","C13: ACL payload dropped",QT),
 M(Q,"filterSco","(h1 &&& 0x3f)","(h1 &&& 0x0f)","C13: SCO status lost",QT),
 M(Q,"filterIso","some (h0 :: (h1 &&& 0x7f)","some (h0 :: (h1 &&& 0x0f)","C13: ISO flags lost",QT),
 M(Q,"nameAt","let r := changeName m (ps.drop off) false","let r := (m, ps.drop off)","C13: local name kept",QT),
 M(Q,"commandFilter","op = LE_SET_ADVERTISING_DATA ∨ op = LE_SET_SCAN_RESPONSE_DATA","op = LE_SET_ADVERTISING_DATA","C13: scan response not filtered",QT),
 M(Q,"commandFilter","op = LE_SET_EXTENDED_ADVERTISING_DATA ∨ op = LE_SET_EXTENDED_SCAN_RESPONSE_DATA","op = LE_SET_EXTENDED_ADVERTISING_DATA","C13: extended scan response not filtered",QT,tightened=["C13_set_extended_data","C13_extended_report","C13_read_eir"],note="survived at first: these packets had no theorem of their own"),
 M(Q,"commandFilter","  else if op = LE_SET_PERIODIC_ADVERTISING_DATA then some perAdvData\n","","C13: periodic advertising data not filtered",QT),
 M(Q,"advData","s :: r.2 ++ List.replicate (31 - s.toNat) 0","s :: r.2","C13: padding lost",QT),
 M(Q,"extAdvData","some (r.1, h :: (op &&& 7) :: (frag &&& 1) :: s :: r.2)","some (r.1, h :: (op &&& 7) :: (frag &&& 1) :: s :: data)","C13: extended advertising data not filtered",QT,tightened=["C13_set_extended_data","C13_extended_report","C13_read_eir"],note="survived at first: these packets had no theorem of their own"),
 M(Q,"readLocalName","if ps.head? = some 0 then nameAt 1 m ps else some (m, ps)","some (m, ps)","C13: local name in events kept",QT),
 M(Q,"remoteName","if ps.head? = some 0 then nameAt 7 m ps else some (m, ps)","if ps.head? = some 0 then nameAt 6 m ps else some (m, ps)","C13: off by one in remote name",QT),
 M(Q,"remoteName","if ps.head? = some 0 then nameAt 7 m ps else some (m, ps)","some (m, ps)","C13: remote name kept",QT),
 M(Q,"eirResult","eirAt 15 m (eirResultHeader ps)","some (m, ps)","C13: inquiry response kept",QT),
 M(Q,"reports","let r := filterGap m (rest.take s.toNat)\n        match","let r := (m, rest.take s.toNat)\n        match","C13: reports not filtered",QT),
 M(Q,"reports","rest.length < s.toNat + post","rest.length < s.toNat","C13: truncated report accepted",QT),
 M(Q,"eventParams","reports 23 0 extReportHeader","reports 22 0 extReportHeader","C13: extended report offset",QT,tightened=["C13_set_extended_data","C13_extended_report","C13_read_eir"],note="survived at first: these packets had no theorem of their own"),
 M(Q,"eventParams","= READ_EXTENDED_INQUIRY_RESPONSE then","= WRITE_EXTENDED_INQUIRY_RESPONSE then","C13: read EIR not filtered",QT,tightened=["C13_set_extended_data","C13_extended_report","C13_read_eir"],note="survived at first: these packets had no theorem of their own"),
]
S="Sock/Model.lean"; ST="Sock.Props"
sock=[
 M(S,"tickBody","write s.received s.offset bytes","write s.received 0 bytes","C15: pieces overwrite each other",ST),
 M(S,"tickBody","bytesLeft := s.bytesLeft - bytes.length, offset := s.offset + bytes.length }\n      else\n        some","bytesLeft := s.bytesLeft, offset := s.offset + bytes.length }\n      else\n        some","C15: bytes left not decreased",ST),
 M(S,"tickBody","bytesLeft := 4, offset := 0, receivingSize := true","bytesLeft := 4, offset := 0, receivingSize := false","C15: next length taken for a body",ST),
 M(S,"tickBody","bytesLeft := 4, offset := 0, receivingSize := true","bytesLeft := 4, receivingSize := true","C15: offset not reset",ST),
 M(S,"tickBody","s.delivered ++ [buf]","s.delivered ++ [bytes]","C15: only the last piece delivered",ST),
 M(S,"tickBody","      if bytes.length < s.bytesLeft then\n        some { s with received","      if bytes.length + 1 < s.bytesLeft then\n        some { s with received","C15: packet delivered one byte early",ST),
 M(S,"tick","recv s.stream 4 a1","recv s.stream s.bytesLeft a1","C15: the missing fix, C15_overrun_violated must fail",ST),
 M(S,"tick","bytesLeft := le32 buf, received","bytesLeft := le32 buf - 1, received","C15: one byte short",ST),
 M(S,"le32","a.toNat + 256 * b.toNat + 65536 * c.toNat","a.toNat + 256 * c.toNat + 65536 * b.toNat","C15: length bytes swapped",ST),
 M(S,"put32","UInt8.ofNat (n / 256), UInt8","UInt8.ofNat (n / 255), UInt8","C15: wrong length written",ST),
 M(S,"sendPacket","if 4 ≤ w1 then put32 p.length ++ p.take w2","if 4 ≤ w1 then p.take w2","C15: length not written",ST),
]
H="Hec/Model.lean"; HT="Hec.Props"
hec=[
 M(H,"hecStep","0xe5","0xa7","C16: generator not reflected",HT),
 M(H,"hecStep","(value &&& 1 = 1) != bit","(value &&& 1 = 1) || bit","C16: feedback by or",HT),
 M(H,"hec","hecLoop 10 (reverseByte uap)","hecLoop 9 (reverseByte uap)","C16: one bit left out",HT),
 M(H,"hec","hecLoop 10 (reverseByte uap)","hecLoop 10 (uap)","C16: UAP not reflected",HT),
 M(H,"lookup","0b0001, 0b1001, 0b0101, 0b1101,","0b0001, 0b1001, 0b1010, 0b1101,","C16: wrong table entry",HT),
 M(H,"reverseByte","(b &&& 0xF).toNat 0 <<< 4) ||| lookup.getD (b >>> 4)","(b >>> 4).toNat 0 <<< 4) ||| lookup.getD (b &&& 0xF)","C16: nibbles not exchanged",HT),
 M(H,"buildHeader","(packetType &&& 0xF).toUInt32 <<< 3","(packetType &&& 0x7).toUInt32 <<< 3","C16: packet type truncated",HT),
 M(H,"buildHeader","toUInt32 <<< 10","toUInt32 <<< 9","C16: check overlaps SEQN",HT),
 M(H,"buildHeader","(if arqn then (1 : UInt32) else 0) <<< 8","(if flow then (1 : UInt32) else 0) <<< 8","C16: FLOW in the ARQN bit",HT),
]

LL="Le/Lists.lean"; LS="Le/Scan.lean"; LA="Le/Adv.lean"; LU="Le/Update.lean"; LSt="Le/Step.lean"
TL="Le.PropsLists"; TSel="Le.PropsSelect"; TA="Le.PropsAdv"; TP="Le.PropsParams"; TR="Le.PropsReject"
le=[
 M(LL,"addResolving","decide (s.resolvingList.length ≥ cfg.resolvingListSize)","decide (s.resolvingList.length > cfg.resolvingListSize)","C17: one entry too many",TL),
 M(LL,"addResolving","(e.peerType == t && e.peerAddress == a) ||","(e.peerType == t && e.peerAddress == a && false) ||","C17: duplicate identities, Remove leaves one",TL),
 M(LL,"removeResolving","s { s with resolvingList := s.resolvingList.eraseP (fun e => e.peerType == t && e.peerAddress == a) }","s { s with resolvingList := s.resolvingList.eraseP (fun e => e.peerAddress == a) }","C17: removes an entry of another type",TL),
 M(LL,"clearResolving","checked [(s.resolvingListEnabled && resolvingListBusy s, .commandDisallowed)]\n    s { s with resolvingList := [] }","checked [(s.resolvingListEnabled && s.scanner.enable, .commandDisallowed)]\n    s { s with resolvingList := [] }","C17: cleared while advertising",TL),
 M(LL,"addFilterAccept","decide (s.filterAcceptList.length ≥ cfg.filterAcceptListSize)","decide (s.filterAcceptList.length ≥ cfg.resolvingListSize)","C17: wrong capacity",TL),
 M(LL,"clearFilterAccept","checked [(filterAcceptListBusy s, .commandDisallowed)] s { s with filterAcceptList := [] }","checked [(false, .commandDisallowed)] s { s with filterAcceptList := [] }","C17: cleared in use",TL),
 M(LL,"filterAcceptListBusy","(s.scanner.enable && (s.scanner.filterPolicy == .filterAcceptListOnly ||\n    s.scanner.filterPolicy == .filterAcceptListAndInitiatorsIdentity)) ||","(s.scanner.enable && s.scanner.filterPolicy == .filterAcceptListOnly) ||","C17: scanner policy missed",TL),
 M(LL,"falMatches","e.type == t && (t == .anonymous || e.address == a)","e.type == t && e.address == a","C17: anonymous entries compare addresses",TL),
 M(LL,"addPeriodicAdvertiser","(s.periodicAdvertiserList.any (fun e' => e' == e), .invalidHciCommandParameters)]","(s.periodicAdvertiserList.any (fun e' => e'.address == e.address), .invalidHciCommandParameters)]","C17: other SID of the advertiser refused",TL),
 M(LL,"removePeriodicAdvertiser","[(s.synchronizing.isSome, .commandDisallowed),\n     (!s","[(false, .commandDisallowed),\n     (!s","C17: removed while synchronizing",TL),
 M(LL,"setPrivacyMode","fun e => { e with privacyMode := m }","fun e => { e with peerIrk := e.localIrk }","C17: privacy mode overwrites a key",TL),
 M(LS,"withLegacy","if s.extendedInUse = true then (s, .commandDisallowed)","if s.legacyInUse = true then (s, .commandDisallowed)","C18: wrong flag tested",TSel),
 M(LS,"withExtended","f { s with extendedInUse := true }","f s","C18: selection not remembered",TSel),
 M(LA,"setAdvertisingEnable","  withLegacy s fun s =>\n    if enable = false then\n      ({ s with legacyAdv","  (fun f : State → State × Status => f s) fun s =>\n    if enable = false then\n      ({ s with legacyAdv","C18: legacy enable not excluded",TSel),
 M(LA,"setExtAdvertisingEnable","let s := { s with extendedInUse := true }","let s := { s with legacyInUse := false }","C18: extended enable does not select",TSel),
 M(LA,"extParamChecks","(q.legacy && !legacyEventTypes.contains (q.raw - 0x10), .invalidHciCommandParameters)","(q.legacy && !legacyEventTypes.contains (q.raw % 4), .invalidHciCommandParameters)","C19: FATAL reachable",TA),
 M(LA,"extParamChecks","   (!q.canHaveData && !adv.data.isEmpty, .invalidHciCommandParameters),\n","","C19: data in a PDU that has none",TA),
 M(LA,"extParamChecks","(q.legacy && decide (adv.data.length > maxLegacyPdu ∨ adv.scanResponse.length > maxLegacyPdu)","(q.legacy && decide (adv.data.length > maxLegacyPdu)","C19: long scan response in a legacy set",TA),
 M(LA,"extParamChecks","[(adv.enable, .commandDisallowed),\n   (q.legacy","[(q.legacy","C19: parameters changed while enabled",TA),
 M(LA,"setExtAdvertisingParameters","decide (s.extAdv.length ≥ cfg.numSupportedAdvertisingSets)","decide (s.extAdv.length > cfg.numSupportedAdvertisingSets)","C19: one set too many",TA),
 M(LA,"legacyEventTypes","[0x3, 0x5, 0xd, 0x2, 0x0]","[0x3, 0x5, 0xd, 0x2, 0x0, 0x1]","C19: FATAL reachable",TA),
 M(LA,"extEnableChecks","   (adv.partialData || adv.partialScanResponse, .commandDisallowed),\n","   (adv.partialData, .commandDisallowed),\n","C20: incomplete scan response enabled",TA),
 M(LA,"extEnableChecks","(!q.legacy && q.connectable && decide (adv.data.length > q.maxData), .invalidHciCommandParameters)","(!q.legacy && q.connectable && decide (adv.data.length > maxExtendedPdu), .invalidHciCommandParameters)","C19: data too long for a connectable PDU",TA),
 M(LA,"applyOperation","| .lastFragment => some (old ++ new, false)","| .lastFragment => some (new, false)","C20: last fragment replaces",TA),
 M(LA,"applyOperation","| .firstFragment => some (new, true)","| .firstFragment => some (old ++ new, true)","C20: first fragment appends",TA),
 M(LA,"applyOperation","| .intermediateFragment => some (old ++ new, true)","| .intermediateFragment => some (new ++ old, true)","C20: fragments reversed",TA),
 M(LA,"applyOperation","| .completeAdvertisement => some (new, false)","| .completeAdvertisement => some (new, part)","C20: complete data stays incomplete",TA),
 M(LA,"setExtAdvertisingData","(adv.enable && op != .completeAdvertisement && op != .unchangedData, .commandDisallowed)] s <|","(false, .commandDisallowed)] s <|","C20: fragments while enabled",TA),
 M(LA,"setExtScanResponseData","(adv.enable && op != .completeAdvertisement, .commandDisallowed),\n","(false, .commandDisallowed),\n","C20: scan response fragments while enabled",TA),
 M(LA,"tickExtTimeout","let a1 := if expired then { a with enable := false } else a","let a1 := a","terminated set goes on (no claim yet)",TA),
 M(LS,"connChecks","(decide (p.maxLatency > 0x1f3), .unsupportedFeatureOrParameterValue)","(decide (p.maxLatency > 0x1f4), .unsupportedFeatureOrParameterValue)","C22: latency bound",TP),
 M(LS,"connChecks","((1 + p.maxLatency) * (2 * p.intervalMax) * 2 * 625) / 1000","(p.maxLatency * (2 * p.intervalMax) * 2 * 625) / 1000","C22: latency off by one in the timeout rule",TP),
 M(LS,"connChecks","(2 * p.intervalMax) * 2 * 625","(2 * p.intervalMin) * 2 * 625","C22: minimum instead of maximum",TP),
 M(LS,"createConnection","le1m := ⟨true, p⟩, le2m := { s.initiator.le2m with enabled := false }","le1m := ⟨true, p⟩","C22: 2M PHY left on",TP),
 M(LS,"extendedCreateConnection","let o2 := if phys.testBit 1 then o1 + 1 else o1","let o2 := o1","C22: coded PHY gets the 2M parameters",TP),
 M(LS,"extendedCreateConnection","params.flatMap connChecks","(params.take 1).flatMap connChecks","C22: only the first set validated",TP),
 M(LU,"parameterRequestReply","p.supervisionTimeout ≤ (((1 + p.latency) * p.intervalMax * 10) / 4) / 10","p.supervisionTimeout < (((1 + p.latency) * p.intervalMax * 10) / 4) / 10","C22: equality accepted",TP),
 M(LU,"parameterRequestReply","some ⟨p.intervalMin, p.latency, p.supervisionTimeout⟩, .success","some ⟨p.intervalMax, p.latency, p.latency⟩, .success","C22: wrong parameters adopted",TP),
 M(LS,"setScanParameters","(decide (window > interval), .invalidHciCommandParameters)]\n      s { s","(decide (window < interval), .invalidHciCommandParameters)]\n      s { s","C23: comparison reversed",TP),
 M(LS,"setScanParameters","leCoded := { s.scanner.leCoded with enabled := false }, ownAddressType","ownAddressType","C23: coded PHY left on",TP),
 M(LS,"setExtendedScanParameters","let offset := if phys.testBit 0 then 1 else 0","let offset := 0","C23: coded PHY gets the 1M parameters",TP),
 M(LS,"setExtendedScanParameters","(popcount phys != params.length, .invalidHciCommandParameters),\n        (phys == 0, .invalidHciCommandParameters)] ++\n       params.flatMap (fun p","(popcount phys > params.length, .invalidHciCommandParameters),\n        (phys == 0, .invalidHciCommandParameters)] ++\n       params.flatMap (fun p","C23: extra parameters accepted",TP),
 M(LS,"supportedPhys","(if cfg.supportsCodedPhy then 4 else 0)","(if cfg.supports2mPhy then 4 else 0)","C23: wrong support bit",TP),
 M(LA,"checkHandles","if set.handle = 255 then .ub","if set.handle = 255 then .fail .invalidHciCommandParameters","C43: the missing fix, C43_handle_255_violated must fail",TR),
 M(LA,"checkHandles","if set.handle = 255 then .ub","if set.handle ≥ 254 then .ub","C43: smaller array",TR),
 M(LL,"setRandomAddress","(a == 0, .invalidHciCommandParameters)]\n    s {","(a == 0, .invalidHciCommandParameters)]\n    { s with randomAddress := a } {","C44: rejected address stored",TR),
 M(LA,"validateSets","{ adv with advertisingAddress := a, targetAddress := target }","{ adv with advertisingAddress := a, targetAddress := target, enable := true }","C44: earlier sets enabled by a rejected command",TR),
 M(LS,"initiatorAddressCheck","if own = .random ∧ s.randomAddress = 0 then (s, true)","if own = .random ∧ s.randomAddress = 0 then ({ s with resolvingList := [] }, true)","C44: rejected connection clears the resolving list",TR),
]
IM="Iso/Model.lean"; ID="Iso/Data.lean"
IH="Iso.PropsHandles"; IC="Iso.PropsCig"; IR="Iso.PropsCreate"; IA="Iso.PropsAgree"; IX="Iso.PropsCrash"; IT="Iso.PropsData"
iso=[
 M(IM,"newCisHandle","(List.range' 0xe00 0xfe).find? (fun h => !cises","(List.range' 0xe00 0xff).find? (fun h => !cises","C26: the fix for the last handle, the violation must fail",IH),
 M(IM,"newCisHandle","!cises.any (fun c => c.handle = h)","!cises.any (fun c => c.handle = h && c.role = .central)","C26: handle of a peripheral CIS reused",IH),
 M(IM,"newBisHandle","List.range' 0xd00 0xff","List.range' 0xd00 0x100","C26: BIS handle out of range",IH),
 M(IM,"newCis","c.cigId = cigId ∧ c.cisId = cisId ∧ c.role = role","c.cigId = cigId ∧ c.cisId = cisId","C27: reconfiguration takes a peripheral CIS",IC),
 M(IM,"newCis",".ok (cises ++ [{ handle := h, cigId := cigId, cisId := cisId, role := role }], h)",".ok ([{ handle := h, cigId := cigId, cisId := cisId, role := role }], h)","C27: other CISes lost",IC),
 M(IM,"terminateBig","bises := s.bises.filter (fun b => b.bigHandle ≠ bigHandle) }","bises := s.bises }","C26: BISes of a terminated BIG remain",IH),
 M(IM,"createBig","if ¬ (1 ≤ numBis ∧ numBis ≤ 0x1f) then","if ¬ (numBis ≤ 0x1f) then","C26: BIG without BIS",IH),
 M(IM,"removeCig","c.cigId = cigId && c.state ≠ .configuration)","c.cigId = cigId && c.state = .connected)","C27: CIG with pending CIS removed",IC),
 M(IM,"removeCig","cises := s.cises.filter (fun c => c.role ≠ .central ∨ c.cigId ≠ cigId) }","cises := s.cises.filter (fun c => c.cigId ≠ cigId) }","C27: peripheral CISes removed with the CIG",IC),
 M(IM,"lockCigs","{ g with configurable := false }","g","C27: group stays configurable",IC),
 M(IM,"checkCig","if ¬ ((mapFind s.cigs cigId).map (·.configurable)).getD true then some commandDisallowed\n  else\n    match","if False then some commandDisallowed\n  else\n    match","C27: locked group reconfigured",IC),
 M(IM,"configureCises","mapSet s.cisConfigs (cigId, c.cisId) c.config","mapSet s.cisConfigs (cigId, 0) c.config","C27: configuration stored for another CIS",IC),
 M(IM,"isoInterval","divCeil (max sduC sduP) 1250","divCeil (min sduC sduP) 1250","C28: framed interval shorter than the SDU interval",IC),
 M(IM,"unframedInterval","(sduP = 0 ∨ 2 * interval - sduP ≤ latencyP)","(sduP = 0 ∨ 2 * interval - sduP ≤ latencyC)","C28: latency of the other direction",IC),
 M(IM,"unframedInterval","interval / 1250 ≤ 65535 ∧","True ∧","C28: interval does not fit",IC),
 M(IM,"commonSduInterval","else lcmU32 sduC sduP","else .ok (max sduC sduP)","C28: not a multiple of both",IC),
 M(IM,"setCig","isoInterval sduC sduP framed (latencyC * 1000) (latencyP * 1000)","isoInterval sduC sduP framed (latencyP * 1000) (latencyC * 1000)","C28: latencies swapped",IC),
 M(IM,"checkCreate","if c.state ≠ .configuration then .error connectionAlreadyExists\n      else ","if c.state = .connected then .error connectionAlreadyExists\n      else ","C29: pending CIS requested again",IR),
 M(IM,"checkCreate","else if earlier.any (fun r => r.handle = cis) then .error invalidParameters","else if false then .error invalidParameters","C29: duplicate in one command",IR),
 M(IM,"checkCreates","checkCreates s (earlier ++ [r]) rest","checkCreates s (r :: earlier) rest","C29: order reversed",IR),
 M(IM,"createCis","if s.requests ≠ [] then answer s (.createCisStatus commandDisallowed)\n    else if","if","C29: queue overwritten",IR),
 M(IM,"dequeue","requests := rest\n","requests := s.requests\n","C29: request sent twice",IR),
 M(IM,"dequeue","state := .pendingRsp, params := some p","state := .connected, params := some p","C29: connected without an answer",IR),
 M(IM,"cisRsp","match dequeue (setCises s (updateCis s.cises c.handle (fun c => { c with state := .connected }))) with","match (.ok (setCises s (updateCis s.cises c.handle (fun c => { c with state := .connected })), []) : Result) with","C29: next request not started",IR),
 M(IM,"cisRsp","[.llcp acl (.cisInd p.cigSyncDelay p.cisSyncDelay), .event (.cisEstablished e)] ++ outs","[.llcp acl (.cisInd p.cigSyncDelay p.cisSyncDelay)] ++ outs","C29: no event",IR),
 M(IM,"rejectExtInd",".ok (s', .event (.cisEstablished (.failed remoteUserTerminated c.handle)) :: outs)",".ok (s', outs)","C29: rejection not reported",IR),
 M(IM,"removeAcl","requests := s.requests.filter (fun r => r.acl ≠ acl) }","requests := s.requests }","C29: requests of a lost link stay",IR),
 M(IM,"removeAcl","(s.requests.filter (fun r => r.acl = acl)).map (fun r =>\n        .event (.cisEstablished (.failed reason r.handle)))","[]","C29: lost requests not reported",IR),
 M(IM,"lostEvent","| .pendingInd => some (.event (.cisEstablished (.failed reason c.handle)))\n","","C29: pending CIS of a lost link not reported",IR),
 M(IM,"lostEvent","| .pendingRsp => some (.event (.cisEstablished (.failed reason c.handle)))","| .pendingRsp => some (.event (.disconnectionComplete c.handle reason))","C29: disconnection of a CIS never established (allowed: reported as termination)",IR),
 M(IM,"acceptCis","updateCis s.cises h (fun c => { c with state := .pendingInd })","updateCis s.cises h (fun c => { c with state := .connected })","C29: accepted CIS never reported",IR),
 M(IM,"cisInd","{ c with state := .connected, params := some p' }","{ c with params := some p' }","C29: reported again at the next indication",IR),
 M(IM,"dequeue","bnC := p.bnC\n              bnP := p.bnP","bnC := p.bnP\n              bnP := p.bnC","C30: burst numbers swapped in the request",IA),
 M(IM,"dequeue","isoInterval := g.isoInterval })]","isoInterval := g.isoInterval + 1 })]","C30: other interval in the request",IA),
 M(IM,"centralEvent","nse := p.nse\n      bnC := p.bnC","nse := p.bnC\n      bnC := p.bnC","C30: NSE is the burst number",IA),
 M(IM,"peripheralEvent","      bnP := p.bnC\n      bnC := p.bnP\n      ftP := p.ftC\n      ftC := p.ftP\n      maxPduP := p.maxPduC % 256\n      maxPduC := p.maxPduP % 256","      bnC := p.bnC\n      bnP := p.bnP\n      ftC := p.ftC\n      ftP := p.ftP\n      maxPduC := p.maxPduC % 256\n      maxPduP := p.maxPduP % 256","C30: the fix, the violation must fail",IA),
 M(IM,"cisInd","{ p with cigSyncDelay := cigSyncDelay, cisSyncDelay := cisSyncDelay }","{ p with cigSyncDelay := cisSyncDelay, cisSyncDelay := cigSyncDelay }","C30: delays swapped",IA),
 M(IM,"cisReq","          nse := r.nse\n","          nse := r.bnC\n","C30: NSE stored wrong",IA),
 M(IM,"disconnect","if c.state ≠ .connected ∧ c.state ≠ .pendingRsp then","if c.state = .configuration then","C45: peripheral CIS without answer disconnected (claim stays true)",IX),
 M(IM,"disconnect","if c.state ≠ .connected ∧ c.state ≠ .pendingRsp then","if False then","C45: CIS without link disconnected aborts",IX),
 M(IM,"acceptCis","if c.role = .central then answer s (.acceptCisStatus commandDisallowed)\n    else if c.state ≠ .pendingAccept then answer s (.acceptCisStatus commandDisallowed)\n    else","if False then answer s (.acceptCisStatus commandDisallowed)\n    else if False then answer s (.acceptCisStatus commandDisallowed)\n    else","C45: accepting a configured CIS aborts",IX),
 M(ID,"assemble","if pkt.boundary = .first ∨ pkt.boundary = .complete then [] else buffer","if pkt.boundary = .first then [] else buffer","C25: complete SDU appended to an old buffer",IT),
 M(ID,"assemble","pkt.payload.drop (headerSize pkt.timestamp)\n","pkt.payload.drop 8\n","C25: too much header skipped",IT),
 M(ID,"assemble","if maxSdu < sdu.length then .ok (sdu, [])","if maxSdu ≤ sdu.length then .ok (sdu, [])","C25: SDU of maximal size dropped",IT),
 M(ID,"fragmentLoop","(if (data.drop maxPayload).length ≤ maxPayload then .last else .continuation)","(if (data.drop maxPayload).length < maxPayload then .last else .continuation)","C25: last fragment marked as continuation",IT),
 M(ID,"fragmentLoop","(data.drop maxPayload).length = 0 then []","(data.drop maxPayload).length ≤ 1 then []","C25: last octet lost",IT),
 M(ID,"incomingIso","(if pdu.data.length ≤ maxPayload then .complete else .first)","(if pdu.data.length < maxPayload then .complete else .first)","C25: single fragment marked first",IT),
 M(ID,"maxPayload","4095 - 4","4095","C25: fragments too long for an HCI packet",IT),
 M(ID,"Cis.maxSduTx","| .central => p.maxSduC\n    | .peripheral => p.maxSduP","| .central => p.maxSduP\n    | .peripheral => p.maxSduC","C25: limit of the other direction",IT),
]
TM="Le.PropsLimit"
le2=[
 M(LL,"setPrivacyMode","fun e => { e with privacyMode := m }","fun e => { e with peerIrk := e.localIrk }","C17: privacy mode overwrites a key",TL,tightened=["C17_resolving_entries"],note="survived before the theorem was added"),
 M(LL,"setPrivacyMode","(fun e => e.peerType == t && e.peerAddress == a) (fun e => { e with privacyMode","(fun e => e.peerAddress == a) (fun e => { e with privacyMode","C17: privacy mode of another identity changed",TL),
 M(LA,"tickExtTimeout","let a1 := if expired then { a with enable := false } else a","let a1 := a","C46: terminated set goes on",TM,tightened=["C46_limited_set"],note="survived before C46 was proved"),
 M(LA,"tickExtTimeout","decide (a1.numCompletedEvents ≥ a1.maxEvents)","decide (a1.numCompletedEvents > a1.maxEvents)","C46: one event too many",TM),
 M(LA,"tickExtTimeout","let a2 := if done then { a1 with enable := false } else a1","let a2 := a1","C46: set goes on after its last event",TM),
 M(LA,"tickExtTimeout","let expired := a.enable && a.timeout.any (fun t => decide (now ≥ t))\n  let hdc","let expired := a.timeout.any (fun t => decide (now ≥ t))\n  let hdc","C46: terminated event repeated at every tick",TM),
 M(LA,"tickExtTimeout","let expired := a.enable && a.timeout.any (fun t => decide (now ≥ t))\n  let hdc","let expired := a.enable && a.timeout.any (fun t => decide (now > t))\n  let hdc","C46: advertising at the end of the duration",TM),
 M(LA,"tickExtTimeout","let done := a1.enable && a1.maxEvents","let done := a.enable && a1.maxEvents","C46: two terminated events in one tick",TM),
 M(LA,"tickExtTimeout","[AdvOut.setTerminated h (if a.maxEvents ≠ 0 then a.numCompletedEvents else 0)]","[AdvOut.setTerminated h a.numCompletedEvents]","C46: number of events reported without a limit",TM),
 M(LA,"tickExtEvent","numCompletedEvents := (a.numCompletedEvents + 1) % 256","numCompletedEvents := a.numCompletedEvents","C46: events not counted",TM),
 M(LA,"tickExtEvent","if a.enable = true ∧ now ≥ a.nextEvent then\n    let a' :=","if now ≥ a.nextEvent then\n    let a' :=","C46: disabled set transmits",TM),
 M(LA,"removeAdvertisingSet","checked [(adv.enable, .commandDisallowed)] s { s with extAdv := mapErase","checked [] s { s with extAdv := mapErase","C46: removed while advertising, no terminated event",TM),
 M(LA,"setExtAdvertisingData","{ adv with data := data, partialData := part }","{ adv with data := data, partialData := part, numCompletedEvents := 0 }","C46: new data restarts the count",TM),
]
KM="Task/Model.lean"; KP="Task.Props"
task=[
 M(KM,"Task.lt","decide (a.time < b.time) || (decide (a.time = b.time) && decide (a.id < b.id))","decide (a.id < b.id)","C38: queue ordered by identifier",KP),
 M(KM,"Task.lt","decide (a.time < b.time) || (decide (a.time = b.time) && decide (a.id < b.id))","decide (a.time < b.time)","C38: tasks due at the same time are equivalent, one is dropped",KP),
 M(KM,"cancel","if x.id = id then q else","if x.id = id then cancel id q else","C38: erases all tasks with the identifier (claim stays true)",KP),
 M(KM,"cancel","if x.id = id then q else x :: cancel id q","if x.id = id then q else cancel id q","C38: cancelling drops earlier tasks",KP),
 M(KM,"nextId","if c = 0 ∨ c ∈ used then nextId used fuel ((c + 1) % idLimit)\n    else","if c = 0 then nextId used fuel ((c + 1) % idLimit)\n    else","C38: identifier of a queued task given again",KP),
 M(KM,"nextId","else some (c, (c + 1) % idLimit)","else some (c, c)","C38: counter does not advance, a later task is cancelled through an old identifier",KP),
 M(KM,"step","if t.time > now then none\n      else","if t.time > now + 1 then none\n      else","C38: task called early",KP),
 M(KM,"step","some { m with queue := q, phase := .callback now t","some { m with queue := t :: q, phase := .callback now t","C38: task not removed when called",KP),
 M(KM,"step","{ t with time := now + p }","{ t with time := t.time }","C38: periodic task not moved (claim about order stays true)",KP),
 M(KM,"step","{ t with time := now + p }","{ t with time := now - p }","C38: periodic task moved back",KP),
 M(KM,"step","| none => some { m with phase := .loop now }","| none => some { m with phase := .loop now, queue := insert t m.queue }","C38: one-shot task inserted again",KP),
 M(KM,"step","| .loop now, t :: _ => if t.time > now then some","| .loop now, t :: _ => if t.time ≥ now then some","C38: loop ends with a task that is due",KP),
 M(KM,"step","some { m with queue := cancel id m.queue, cancelled","some { m with queue := m.queue, cancelled","C38: cancelling does nothing",KP),
 M(KM,"step","| .loop _, [] => some { m with phase := .idle }","| .loop _, [] => some { m with phase := .idle, queue := m.queue.drop 1 }","nothing (equivalent)",KP),
]
XT="Test/Transport.lean"; XP="Test.TransportProps"; XH="Test/Handler.lean"; XQ="Test.HandlerProps"
test=[
 M(XT,"recvVector","List.replicate (n - (recv n s).1.length) 0, (recv n s).2)","[], (recv n s).2)","C42: nothing for whole commands; the split witness changes",XP),
 M(XT,"recvArgs","| (args, s) => (arg :: args, s)","| (args, s) => (args ++ [arg], s)","C42: arguments reversed",XP),
 M(XT,"recvArgs","match recvVector size.toNat s with","match recvVector (size.toNat - 1) s with","C42: last byte of an argument lost",XP),
 M(XT,"onCommandReady","if name = closeName ∨ name = [] then","if name = closeName then","C42: empty name not treated as the end",XP),
 M(XT,"onCommandReady","if b.length ≠ 1 then { s with isOpen := false } else s","s","C42: end of stream does not close (the empty name closes it anyway, equivalent)",XP),
 M(XT,"onCommandReady","if b.length ≠ 1 then { s with isOpen := false } else s","if b.length = 1 then { s with isOpen := false } else s","C42: closed on every command",XP),
 M(XT,"onCommandReady","match recvArgs num.toNat s with","match recvArgs (num.toNat + 1) s with","C42: reads into the next command",XP),
 M(XT,"le32","UInt8.ofNat (n / 2 ^ 8), UInt8.ofNat (n / 2 ^ 16), UInt8.ofNat (n / 2 ^ 24)]","UInt8.ofNat (n / 2 ^ 4), UInt8.ofNat (n / 2 ^ 16), UInt8.ofNat (n / 2 ^ 24)]","C42: wrong shift",XP),
 M(XT,"sendResponse","| .all => .sent (le32 (min response.length 0xffff) ++","| .all => .sent (le32 response.length ++","C42: length of the uncut response",XP),
 M(XH,"detectBase","| cs => (10, cs)","| cs => (16, cs)","C47: numbers read as hexadecimal",XQ),
 M(XH,"digitRun","digitRun base cs (acc * base + v)","digitRun base cs (acc + v * base)","C47: digits in the wrong order",XQ),
 M(XH,"parseId","parseIntParam s % 2 ^ 32","parseIntParam s % 2 ^ 16","C47: another device",XQ),
 M(XH,"addDeviceToPhy",".addDeviceToPhy (parseId d) (parseId p)",".addDeviceToPhy (parseId p) (parseId d)","C47: device and phy swapped",XQ),
 M(XH,"delDeviceFromPhy",".removeDeviceFromPhy (parseId d) (parseId p)",".addDeviceToPhy (parseId d) (parseId p)","C47: adds instead of removing",XQ),
 M(XH,"addPhy","if t = \"LOW_ENERGY\".toList then .ok (s.apply (.addPhy .lowEnergy))","if t = \"LOW_ENERGY\".toList then .ok (s.apply (.addPhy .brEdr))","C47: phy of the wrong type",XQ),
 M(XH,"addRemote","(if type = \"LOW_ENERGY\".toList then .lowEnergy else .brEdr)","(if type = \"LE\".toList then .lowEnergy else .brEdr)","C47: remote device on the wrong phys",XQ),
 M(XH,"addRemote","parseIntParam port > 0xffff ∨","parseIntParam port > 0x7fff ∨","C47: high ports refused",XQ),
 M(XH,"setDeviceAddress",".ok (s.apply (.setAddress (parseId d) (fromStringInto a Address.empty).2)) [.done]",".ok s [.done]","C47: address not set",XQ),
 M(XH,"setDeviceConfiguration","| none => .ok s [.usage]","| none => .ok { s with configured := s.configured ++ [(parseId d, .default)] } [.usage]","C47: unknown preset applied",XQ),
 M(XH,"handleCommand","else if name = \"del_phy\".toList then delPhy s args","else if name = \"del_phy\".toList then delDevice s args","C47: wrong handler",XQ),
 M(XH,"handleCommand","else .ok s [.unhandled]","else .ok s []","C47: unknown command not answered",XQ),
 M(XH,"Timer.stop","live := t.live.filter (fun x => some x.1 ≠ t.current), current := none","current := none","C48: stopping does not cancel",XQ),
 M(XH,"Timer.start","live := t.live ++ [(t.nextTask, t.period)]","live := t.live ++ [(t.nextTask, 10)]","C48: period ignored",XQ),
 M(XH,"Timer.setPeriod","else Timer.start (Timer.stop { t with period := p })","else { t with period := p }","C48: running timer keeps the old period",XQ),
 M(XH,"Timer.setPeriod","if t.current = none then { t with period := p }\n  else ","","C48: setting the period starts the timer",XQ),
 M(XH,"resetCommand","{ s with timer := s.timer.stop, pendingResets := s.pendingResets + 1 }","{ s with pendingResets := s.pendingResets + 1 }","C48: reset leaves the timer on",XQ),
]
KM="Mask/Model.lean"; KP="Mask.Props"
mask=[
 M(KM,"bit","some (1#64 <<< (code - 1))","some (1#64 <<< code)","C31: bit off by one",KP),
 M(KM,"isEventUnmasked","if evt ≤ 64 then","if evt ≤ 32 then","C31: upper half of page 1 read from page 2",KP),
 M(KM,"isEventUnmasked","fun b => m.mask &&& b != 0#64","fun b => m.mask &&& b == 0#64","C31: test inverted",KP),
 M(KM,"isEventUnmasked","fun b => m.page2 &&& b != 0#64","fun b => m.mask &&& b != 0#64","C31: page 2 read from page 1",KP),
 M(KM,"isLeEventUnmasked","lm && (m.le &&& b != 0#64)","(m.le &&& b != 0#64)","C31: LE Meta bit ignored",KP),
 M(KM,"isLeEventUnmasked","lm && (m.le &&& b != 0#64)","lm || (m.le &&& b != 0#64)","C31: LE Meta bit alone is enough",KP),
 M(KM,"leMetaEvent","def leMetaEvent : Nat := 0x3e","def leMetaEvent : Nat := 0x3d","C31: wrong meta event",KP),
 M(KM,"send","if b then [s.event] else []","[s.event]","C31: mask test has no effect",KP),
 M(KM,"leSites",'⟨"le_controller.cc:6362", .hci 0x05, .event 0x05⟩','⟨"le_controller.cc:6362", .hci 0x05, .none⟩',"C31: disconnection not guarded",KP),
 M(KM,"leSites",'⟨"le_controller.cc:5901", .le 0x03, .le 0x03⟩','⟨"le_controller.cc:5901", .le 0x03, .le 0x01⟩',"C31: guarded by another event",KP),
 M(KM,"brEdrSites",'⟨"bredr_controller.cc:1992", .hci 0x04, .event 0x04⟩','⟨"bredr_controller.cc:1992", .hci 0x04, .event 0x03⟩',"C31: guarded by another event",KP),
 M(KM,"connectionComplete","if enhanced then some [.le 0x0a]","if enhanced then some [.le 0x0a, .le 0x01]","C31: both forms sent",KP),
 M(KM,"connectionComplete","(isLeEventUnmasked m 0x01).map fun legacy","(isEventUnmasked m leMetaEvent).map fun legacy","C31: legacy form without its bit",KP),
 M(KM,"step","{ le := { s.le with mask := m }, brEdr := { s.brEdr with mask := m } }","{ s with le := { s.le with mask := m } }","C31: BR/EDR half not told",KP),
 M(KM,"step","{ s with le := { s.le with le := m } }","{ s with le := { s.le with mask := m } }","C31: LE mask written to the event mask",KP),
 M(KM,"step","{ le := { mask := 0x00001fffffffffff#64, page2 := 0#64, le := 0x1f#64 },","{ le := { s.le with page2 := 0#64, le := 0x1f#64 },","C31: Reset keeps the mask",KP),
]
LM="Ll/Model.lean"; LR="Ll/Rpa.lean"; LA="Ll.PropsAccept"; LV="Ll.PropsActive"; LRp="Ll.PropsReport"; LS="Ll.PropsSync"; LP="Ll.PropsRpa"
ll=[
 M(LR,"lowByte","BitVec.ofNat 8 (d.r3 % 0xfe + 1)","BitVec.ofNat 8 (d.r3 % 0xff)","C32: all zeros again possible",LP),
 M(LR,"maskedTop","&&& 0x3f#8","&&& 0x7f#8","C32: the two top bits are not 01",LP),
 M(LR,"makeRpa","prand d ++ ah irk (prand d)","ah irk (prand d) ++ prand d","C32: hash and random part swapped",LP),
 M(LR,"matchesIrk","isRpa a && ah irk (a.address.extractLsb' 24 24)","ah irk (a.address.extractLsb' 24 24)","C32: other random addresses are resolved",LP),
 M(LR,"resolvePrivate","else if s.resolvingListEnabled = false then none","else if s.resolvingListEnabled = true then none","C32: resolution when disabled",LP),
 M(LR,"resolveTarget","matchesIrk ah e.localIrk target","matchesIrk ah e.peerIrk target","C49: peer key used for our address",LV),
 M(LR,"isLocal","| .randomDevice => a.address == s.randomAddress","| .randomDevice => a.address == cfg.publicAddress","C49: random target compared with the public address",LV),
 M(LM,"scanAccepts","| .filterAcceptListOnly => falContains s r && (!directed || validateTarget ah cfg s target r)","| .filterAcceptListOnly => falContains s r || (!directed || validateTarget ah cfg s target r)","C49: accept list not needed",LV),
 M(LM,"notDuplicate","s.le.scanner.filterDuplicates == .disabled || !s.history.contains p","s.le.scanner.filterDuplicates != .disabled || !s.history.contains p","C50: filter inverted",LV),
 M(LM,"remember","else { s with history := p :: s.history }","else { s with history := [p] }","C50: history of one packet",LV),
 M(LM,"fragmentLoop","(if offset + min max (data.length - offset) < data.length then","(if offset + min max (data.length - offset) ≤ data.length then","C21: extra empty fragment",LRp),
 M(LM,"maxExtFragment","def maxExtFragment : Nat := 229","def maxExtFragment : Nat := 230","C21: fragment too large",LRp),
 M(LM,"extReports","complete := f.1, data := f.2 }\n\n/-- `ScanIncomingLeExtended","complete := true, data := f.2 }\n\n/-- `ScanIncomingLeExtended","C21: continuing fragments marked complete",LRp),
 M(LM,"phyAccepts","(p.primary == .codedS8 && !s.scanner.leCoded.enabled)","(p.primary == .codedS8 && s.scanner.leCoded.enabled)","C49: coded PHY test inverted",LV),
 M(LM,"scanRequest","else if (mapFind s.pending adv).isSome then .ok (s, [])\n  else if fresh","else if fresh","C51: repeated requests",LV),
 M(LM,"scanRequest","else if activeScanning s.le = false then .ok (s, [])","else if activeScanning s.le = true then .ok (s, [])","C51: passive scanner sends requests",LV),
 M(LM,"ownAddress","| .resolvableOrPublic => some (rpa.getD ⟨cfg.publicAddress, .publicDevice⟩)","| .resolvableOrPublic => some ⟨cfg.publicAddress, .publicDevice⟩","C51: private address not used",LV),
 M(LM,"scanResponse","pending := mapErase s.pending adv }","pending := s.pending }","C52: a response answers many times",LV),
 M(LM,"scanResponse","    | none => (s, [])\n    | some req =>","    | none => (s, responseReports s.le ⟨false, false, .le1m, .le1m, 0⟩ adv data)\n    | some req =>","C52: unasked responses reported",LV),
 M(LM,"initiatorAccepts","| .usePeerAddress => r == s.initiator.peerAddress","| .usePeerAddress => r.address == s.initiator.peerAddress.address","C53: address type ignored",LA),
 M(LM,"initiate","else if s.le.initiator.pendingConnectRequest.isSome then .ok (s, [])\n","","C53: repeated requests",LA),
 M(LM,"requestParams","⟨s.initiator.le1m.params.intervalMax,","⟨s.initiator.le1m.params.intervalMin,","C53: minimum interval",LA),
 M(LM,"connectLegacy","if s.le.initiator.enable = false then .ok (s, [])\n  else initiate","if s.le.scanner.enable = true then .ok (s, [])\n  else initiate","C53: request without an attempt",LA),
 M(LM,"handleConnection","conns := (h, c) :: s.conns, lastHandle","conns := [(h, c)], lastHandle","C37: other connections lost",LA),
 M(LM,"legacyConnectable","a.type != .advNonconnInd && a.type != .advScanInd","a.type != .advNonconnInd","C54: scannable advertiser accepts",LA),
 M(LM,"connectAccepts","if directed then r == peerDeviceAddress peer peerType","if directed then true","C54: directed advertiser accepts all",LA),
 M(LM,"connectAccepts","| .allDevices | .listedScan => true\n    | .listedConnect | .listedScanAndConnect => falContains s r","| .allDevices | .listedConnect => true\n    | .listedScan | .listedScanAndConnect => falContains s r","C54: policies exchanged",LA),
 M(LM,"legacyConnect","legacyAdv := { x.2.1.le.legacyAdv with enable := false }","legacyAdv := { x.2.1.le.legacyAdv with enable := true }","C54: advertiser goes on",LA),
 M(LM,"legacyConnect","else if a.advertisingAddress ≠ adv then .ok (false, s, [])\n  else\n    let r := resolved ah s.le init\n    let s := { s with le := resolveUpdate ah s.le init }\n    if connectAccepts s.le (legacyDirected a)","else\n    let r := resolved ah s.le init\n    let s := { s with le := resolveUpdate ah s.le init }\n    if connectAccepts s.le (legacyDirected a)","C54: requests to others accepted",LA),
 M(LM,"extConnect","x.2.2 ++ [.send (.connectComplete init adv q), .setTerminated h (some x.1) a.numCompletedEvents]","x.2.2 ++ [.setTerminated h (some x.1) a.numCompletedEvents]","C54: no answer to the initiator",LA),
 M(LM,"incomingConnectComplete","pendingConnectRequest := none, enable := false","pendingConnectRequest := none","C36: the attempt goes on",LA),
 M(LM,"incomingConnectComplete","⟨adv, init, if isRpa adv","⟨init, adv, if isRpa adv","C54: addresses not mirrored",LA),
 M(LM,"incomingConnectComplete",".central, q⟩",".peripheral, q⟩","C54: both ends peripheral",LA),
 M(LM,"incomingLink","c.address.address = source && c.own.address = destination","c.address.address = source","C37: packets to others processed",LA),
 M(LM,"incomingLink","| .acl pb bc d => .ok (s, [.acl h (if pb = 0 then 2 else pb) bc d])","| .acl pb bc d => .ok (s, [.acl h (if pb = 0 then 2 else pb) bc d.dropLast])","C54: last octet lost",LA),
 M(LM,"removeConnection","conns := Conn.erase s.conns h, links","links","C37: connection stays",LA),
 M(LM,"handleAcl",".send (.link c.own.address c.address.address (.acl pb bc data))",".send (.link c.address.address c.own.address (.acl pb bc data))","C54: sent to itself",LA),
 M(LM,"periodicPdu","let h := freeSyncHandle s.le.synchronized (s.le.synchronized.length + 1) 0","let h := s.le.synchronized.length","C39: handles reused",LS),
 M(LM,"periodicPdu","synchronizing := none, synchronized := mapSet","synchronized := mapSet","C39: stays synchronizing",LS),
 M(LM,"matchesSynchronizing","else y.advertiser == e","else y.advertiser.address == e.address","C39: advertising set ignored",LS),
 M(LM,"scanTimers","if stop || (periodEnd && s.le.scanner.filterDuplicates == .resetEachPeriod) then [] else s.history","if stop || periodEnd then [] else s.history","C50: history cleared each period",LV),
 M(LM,"tick","if (scanning now le).2 then [.scanTimeout] else []","[]","C55: host not told",LA),
 M("Le/Scan.lean","scanning","let stop := expired s.scanner.timeout && s.scanner.periodicalTimeout.isNone","let stop := expired s.scanner.timeout","C55: periodic scan stops (claim about single scans stays)",LA,note="the part of C55 about periodic scans is the violated one; C55_periodic_violated fails"),
 M("Le/Scan.lean","setExtendedScanEnable","timeout := (if duration = 0 then none else some (now + 10000 * duration))","timeout := (if duration = 0 then none else some (now + 1000 * duration))","C55: wrong unit",LA),
 M(LM,"command","if clearsScan c && e == .success then","if clearsScan c && e != .success then","C50: history kept on restart",LV),
]
ec=[
M("Ec/Model.lean","dbl","let s := 4 * x * y ^ 2","let s := 2 * x * y ^ 2","wrong doubling formula","Ec.Props"),
M("Ec/Model.lean","dbl","3 * x ^ 2 + (-3) * z ^ 4","3 * x ^ 2 + (-3) * z ^ 2","wrong power of z in the slope","Ec.Props"),
M("Ec/Model.lean","dbl","- 8 * y ^ 4","- 4 * y ^ 4","wrong doubling formula","Ec.Props"),
M("Ec/Model.lean","dbl","let rz := 2 * y * z","let rz := y * z","z of the double not doubled","Ec.Props"),
M("Ec/Model.lean","dbl","    if y = 0 then .inf\n","    if x = 0 then .inf\n","tests the wrong coordinate for zero","Ec.Props"),
M("Ec/Model.lean","add","let u1 := (x1 * z2 ^ 2).tmod c.p","let u1 := (x1 * z1 ^ 2).tmod c.p","wrong z in the addition","Ec.Props"),
M("Ec/Model.lean","add","let s2 := (y2 * z1 ^ 3).tmod c.p","let s2 := (y2 * z1 ^ 2).tmod c.p","wrong power in the addition","Ec.Props"),
M("Ec/Model.lean","add","if s1 ≠ s2 then .inf else dbl","if s1 = s2 then .inf else dbl","doubling case swapped with the opposite case","Ec.Props",note="Not a claim of C33: a private key below the group order never adds a point to itself or to its opposite."),
M("Ec/Model.lean","add","let x3 := r ^ 2 - h3 - 2 * u1h2","let x3 := r ^ 2 + h3 - 2 * u1h2","sign error in the addition","Ec.Props"),
M("Ec/Model.lean","add","let y3 := r * (u1h2 - x3) - s1 * h3","let y3 := r * (u1h2 - x3) - s2 * h3","wrong operand in the addition","Ec.Props"),
M("Ec/Model.lean","add","let z3 := h * z1 * z2","let z3 := h * z1","z of the second point dropped","Ec.Props"),
M("Ec/Model.lean","mulLoop","(if i % 2 = 1 then add","(if i % 2 = 0 then add","adds for the wrong bits","Ec.Props"),
M("Ec/Model.lean","mulLoop","(dbl c addend) (i.tdiv 2)","addend (i.tdiv 2)","addend not doubled","Ec.Props"),
M("Ec/Model.lean","mul","(k.natAbs.log2 + 2)","(k.natAbs.log2)","loop ends before the top bit","Ec.Props"),
M("Ec/Model.lean","egcdLoop","(s.2 - q * s.1, s.1)","(s.2 + q * s.1, s.1)","wrong Bezout coefficient","Ec.Props"),
M("Ec/Model.lean","egcd","if 0 ≤ res.1 then res else (-res.1, -res.2)","if 0 ≤ res.1 then res else (-res.1, res.2)","sign of the coefficient lost","Ec.Props"),
M("Ec/Model.lean","toAffine","(y * i ^ 3).tmod c.p","(y * i ^ 2).tmod c.p","wrong power of the inverse","Ec.Props"),
M("Ec/Model.lean","fromSignedLe","if 2 * natOfLe bs < 256 ^ bs.length","if natOfLe bs < 256 ^ bs.length","reads octets as unsigned","Ec.Props"),
M("Ec/Model.lean","signedLen","(m.log2 + 1) / 8 + 1","m.log2 / 8 + 1","no room for the sign bit","Ec.Props"),
M("Ec/Model.lean","toBytes","resize c.keySize (toSignedLe x) ++ resize c.keySize (toSignedLe y)","resize c.keySize (toSignedLe y) ++ resize c.keySize (toSignedLe x)","coordinates swapped","Ec.Props"),
M("Ec/Model.lean","generate","let key := if key < 1 then 1 else key\n","","key zero kept","Ec.Props"),
M("Ec/Model.lean","generate","let key := if key < 0 then -key else key\n","","negative key kept","Ec.Props"),
M("Ec/Model.lean","toPoint","(fromSignedLe (pub.drop (pub.length / 2)))","(fromSignedLe (pub.take (pub.length / 2)))","first coordinate read twice","Ec.Props"),
M("Ec/Model.lean","p256","gy := 0x4fe342e2fe1a7f9b8ee7eb4a7c0f9e162bce33576b315ececbb6406837bf51f5","gy := 0x4fe342e2fe1a7f9b8ee7eb4a7c0f9e162bce33576b315ececbb6406837bf51f4","wrong base point","Ec.Props"),
M("Ec/Model.lean","p192","p := 0xfffffffffffffffffffffffffffffffeffffffffffffffff","p := 0xffffffffffffffffffffffffffffffffffffffffffffffff","wrong modulus","Ec.Props"),
]
lmp=[
M('Lmp/Model.lean','authMethod','else if hasMitm i.auth = false ∧ hasMitm r.auth = false then .justWork','else if hasMitm i.auth = false ∨ hasMitm r.auth = false then .justWork','C34: protection asked for by one side only is ignored','Lmp.EncProps'),
M('Lmp/Model.lean','authMethod','(r.io = .keyboardOnly ∧ i.io ≠ .noInputNoOutput)','(r.io = .keyboardOnly ∧ i.io ≠ .displayOnly)','C34: wrong row of the IO capability table','Lmp.EncProps'),
M('Lmp/Model.lean','authMethod','if i.oob ≠ .notPresent ∨ r.oob ≠ .notPresent then','if i.oob ≠ .notPresent ∧ r.oob ≠ .notPresent then','C34: out-of-band data of one side is ignored','Lmp.EncProps'),
M('Lmp/Model.lean','hasMitm','  | .noBonding | .dedicated | .general => false\n  | .noBondingMitm | .dedicatedMitm | .generalMitm => true','  | .noBonding | .dedicated | .general | .generalMitm => false\n  | .noBondingMitm | .dedicatedMitm => true','C34: a requirement is misread','Lmp.EncProps',tightened=['C34_simple_pairing_partial'],note='the specification used the function of the model; it now has its own'),
M('Lmp/Model.lean','linkKeyType','  | true, .justWork => .unauthenticatedP256\n  | true, _ => .authenticatedP256','  | true, .justWork => .authenticatedP256\n  | true, _ => .authenticatedP256','C34: an unauthenticated key is called authenticated','Lmp.EncProps'),
M('Lmp/Model.lean','passkeyRoundR','  let c ← recvLmp isConfirm\n  checkCommitment c\n  receiveCommitment','  checkCommitment (.confirm true)\n  receiveCommitment','C34: the responder does not wait for the commitment','Lmp.EncProps'),
M('Lmp/Model.lean','stage1I','      lmp .numericFailed\n','','C34: the initiator does not tell that its user said no','Lmp.EncProps'),
M('Lmp/Model.lean','stage1R','    let ok ← userConfirmation\n    return .ok (!ok)','    let _ ← userConfirmation\n    return .ok false',"C34: the responder's user is not listened to",'Lmp.EncProps'),
M('Lmp/Model.lean','respondRest','      if negative then do','      if false then do',"C34: the responder's refusal is dropped",'Lmp.EncProps'),
M('Lmp/Model.lean','initiateRest','    if ← sendAccepted .dhkeyCheck .dhkeyCheck then do','    let _ ← sendAccepted .dhkeyCheck .dhkeyCheck\n    if true then do','C34: the initiator ignores the refusal of the DHKey check','Lmp.EncProps'),
M('Lmp/Model.lean','respondRest','        hci (.simplePairingComplete .success)\n        receiveChallenge\n        let ok ← sendChallenge','        hci (.simplePairingComplete .success)\n        let ok ← sendChallenge\n        receiveChallenge','C34: both sides send their challenge first','Lmp.EncProps'),
M('Lmp/Model.lean','sendPublicKey','repeatN (keyChunks p256) do','repeatN (keyChunks false) do','C34: P-256 keys are cut short','Lmp.EncProps'),
M('Lmp/Model.lean','sspInitiate','let p256 ← supportedOnBoth f 1 Word.b3','let p256 ← supportedOnBoth f 1 Word.b0','C34: the curve depends on the wrong feature','Lmp.EncProps'),
M('Lmp/Model.lean','authInitiate','if ← supportedOnBoth f 1 Word.b0 then','if f.page1.b0 then','C34: simple pairing with a peer that has not enabled it','Lmp.EncProps'),
M('Lmp/Model.lean','authRespond','    else lmp (.notAccepted .auRand)','    else return ()','C34: the challenge is not refused without a key','Lmp.EncProps'),
M('Lmp/Model.lean','legacyRespond','  receiveChallenge\n  let ok ← sendChallenge\n','  receiveChallenge\n  let ok := true\n','C34: the responder does not authenticate the initiator','Lmp.EncProps'),
M('Lmp/Model.lean','aesCcm','if ← supportedOnBoth f 1 Word.b3 then supportedOnBoth f 2 Word.b8 else return false','if ← supportedOnBoth f 1 Word.b3 then supportedOnBoth f 1 Word.b8 else return false',"C57: the controller's support is read from the wrong page",'Lmp.EncProps'),
M('Lmp/Model.lean','encRespond','  lmp (.accepted .startEncryptionReq)\n','  lmp (.accepted .encryptionKeySizeReq)\n','C57: the wrong request is accepted','Lmp.EncProps'),
M('Lmp/Model.lean','supportedOnBoth','    | .featuresRes w => return bit w','    | .featuresRes _ => return true',"C57: the peer's features are not looked at",'Lmp.EncProps'),
M('Lmp/Model.lean','offer','      else if c.kind = .keypress then\n        some ⟨.send (.hci (.answer c.kind .success)) (.passkey k), none, queue, false⟩','      else if c.kind = .keypress then\n        some ⟨.passkey k, none, queue, false⟩','C35: keypress notifications are not answered','Lmp.Props'),
M('Lmp/Model.lean','recvReply','  hci (.answer c.kind .success)\n  return c.kind = pos','  if c.kind = pos then hci (.answer c.kind .success) else pure ()\n  return c.kind = pos','C35: negative replies are not answered','Lmp.Props'),
M('Lmp/Model.lean','encInitiate','  hci (.answer c.kind .success)\n  let _ ← sendAccepted .encryptionModeReq .encryptionModeReq','  let _ ← sendAccepted .encryptionModeReq .encryptionModeReq\n  hci (.answer c.kind .success)',"C35: the command is answered after the peer's answer",'Lmp.Props'),
M('Lmp/Model.lean','legacyInitiate','  hci .pinCodeRequest\n  let c ← recvHci (fun k => k = .pinReply)\n  hci (.answer c.kind .success)\n  let _ ← sendAccepted','  hci .pinCodeRequest\n  let c ← recvHci (fun k => k = .pinReply)\n  hci (.answer c.kind .success)\n  hci (.answer c.kind .success)\n  let _ ← sendAccepted','C35: a command is answered twice','Lmp.Props'),
M('Lmp/Manager.lean','removeLink','        match complete c .unknownConnection with\n        | some o => .ok { m with links := m.links.set i .unused } o\n        | none => .assertion','        match complete c .unknownConnection with\n        | some _ => .ok { m with links := m.links.set i .unused } []\n        | none => .assertion','C35: removing a link drops its command','Lmp.Props'),
M('Lmp/Manager.lean','removeLink','      | none => .ok { m with links := m.links.set i .unused } []\n    | none => .panic\n  | none => .assertion','      | none => .ok { m with links := m.links.set i { l with peer := emptyAddress } } []\n    | none => .panic\n  | none => .assertion','C35: the packets and procedures of a removed link stay','Lmp.Props'),
M('Lmp/Manager.lean','removeLink','        | some o => .ok { m with links := m.links.set i .unused } o','        | some o => .ok { m with links := m.links.set i { l with peer := emptyAddress } } o','C35: the command of a removed link stays','Lmp.Props'),
M('Lmp/Manager.lean','ingestHci','        else .ok { m with links := m.links.set i { l with slot := some c } } []','        else .ok { m with links := m.links.set i { l with slot := some c } } [.hci c.addr (.answer c.kind .success)]','C35: commands are answered when they arrive and again later','Lmp.Props'),
M('Lmp/Manager.lean','ingestHci','        if l.slot.isSome then .panic\n        else .ok','        if false then .panic\n        else .ok','C35: a waiting command is overwritten','Lmp.Props'),
M('Lmp/Manager.lean','addLink','position (fun l => l.peer = emptyAddress) m.links','position (fun _ => true) m.links','C35: a new link takes the place of one in use','Lmp.Props'),
M('Lmp/Manager.lean','maxPeers','def maxPeers : Nat := 7','def maxPeers : Nat := 6','C35: fewer links than the specification has','Lmp.Props',tightened=['C35_no_abort_partial','C35_eighth_link_violated'],note='the specification used the constant of the model; it now says seven'),
]
sub=[
 M("Sub/Model.lean","setDefaultSubrate","else if latency > 0x1f3 then (.unsupportedValue, cur)","else if latency > 0x1f4 then (.unsupportedValue, cur)","C24: default latency one too large accepted","Sub.Props"),
 M("Sub/Model.lean","setDefaultSubrate","else (.success, ⟨min, max, latency, cont, timeout⟩)","else (.success, cur)","C24: defaults not stored","Sub.Props"),
 M("Sub/Model.lean","setDefaultSubrate","else (.success, ⟨min, max, latency, cont, timeout⟩)","else (.success, ⟨min, max, cont, latency, timeout⟩)","C24: default latency and continuation swapped","Sub.Props"),
 M("Sub/Model.lean","subrateRequest","  if min < 1 ∨ min > 0x1f4 then .ok .unsupportedValue e [] []","  if min > 0x1f4 then .ok .unsupportedValue e [] []","C24: a subrate minimum of zero is accepted","Sub.Props"),
 M("Sub/Model.lean","subrateRequest","  else if max < 1 ∨ max > 0x1f4 then .ok .unsupportedValue e [] []","  else if max < 1 ∨ max > 0x1f5 then .ok .unsupportedValue e [] []","C24: maximum 501 accepted (the product check still refuses it)","Sub.Props",note="equivalent to the code in what is accepted: max*(latency+1) > 500 refuses 501; only the error code differs"),
 M("Sub/Model.lean","subrateRequest","  else if min > max then .ok .invalidParameters e [] []","  else if min > max + 1 then .ok .invalidParameters e [] []","C24: minimum above maximum accepted","Sub.Props"),
 M("Sub/Model.lean","subrateRequest","  else if max * (latency + 1) > 500 then .ok .invalidParameters e [] []","  else if max * latency > 500 then .ok .invalidParameters e [] []","C24: the product of the factor and the latency is too large","Sub.Props"),
 M("Sub/Model.lean","subrateRequest","≥ timeout / 2 then .ok .invalidParameters e [] []","> timeout then .ok .invalidParameters e [] []","C24: the supervision timeout is not checked","Sub.Props"),
 M("Sub/Model.lean","subrateRequest","  else if cont ≥ max then .ok .invalidParameters e [] []","  else if cont > max then .ok .invalidParameters e [] []","C24: the continuation number equals the factor","Sub.Props"),
 M("Sub/Model.lean","subrateRequest","timing := ⟨e.timing.interval, max, cont, latency, timeout⟩, accept","timing := ⟨e.timing.interval, max, latency, cont, timeout⟩, accept","C59: the central swaps latency and continuation number","Sub.Props"),
 M("Sub/Model.lean","subrateRequest","        [.subrateInd .success max latency cont timeout] [.subrateChange .success max latency cont timeout]\n    | .peripheral","        [] [.subrateChange .success max latency cont timeout]\n    | .peripheral","C59: the peer is not told","Sub.Props"),
 M("Sub/Model.lean","subrateRequest","| .peripheral => .ok .success e [.subrateReq min max latency cont timeout] []\n\n/-- `IncomingLlSubrateReq`","| .peripheral => .ok .success { e with timing := ⟨e.timing.interval, max, cont, latency, timeout⟩ } [.subrateReq min max latency cont timeout] []\n\n/-- `IncomingLlSubrateReq`","C24/C59: a peripheral applies its own request at once","Sub.Props"),
 M("Sub/Model.lean","incomingSubrateReq","(max < e.accept.min ∨ min > e.accept.max)","(max < e.accept.min ∧ min > e.accept.max)","C24: a range without overlap is accepted","Sub.Props"),
 M("Sub/Model.lean","incomingSubrateReq","∨ latency > e.accept.latency ∨","∨","C24: a latency above the acceptable one is accepted","Sub.Props",note="the min below still bounds what is applied"),
 M("Sub/Model.lean","incomingSubrateReq","∨ timeout > e.accept.timeout ∨","∨","C24: a timeout above the acceptable one is accepted","Sub.Props"),
 M("Sub/Model.lean","incomingSubrateReq","let factor := Nat.min max e.accept.max","let factor := max","C24: a factor above the acceptable one is applied","Sub.Props"),
 M("Sub/Model.lean","incomingSubrateReq","Nat.min (Nat.max cont e.accept.cont) ((factor + 65535) % 65536)","Nat.max cont e.accept.cont","C24: the continuation number reaches the factor","Sub.Props"),
 M("Sub/Model.lean","incomingSubrateReq","[.subrateInd .success factor latency' cont' timeout'] [","[.subrateInd .success factor latency cont timeout'] [","C59: the peer is told other values","Sub.Props"),
 M("Sub/Model.lean","incomingSubrateReq","  if e.role ≠ .central then .assertion\n","","C24: a peripheral answers subrate requests","Sub.Props"),
 M("Sub/Model.lean","incomingSubrateInd","timing := ⟨e.timing.interval, factor, cont, latency, timeout⟩ } []\n        [.subrateChange status","timing := ⟨e.timing.interval, factor, latency, cont, timeout⟩ } []\n        [.subrateChange status","C59: the peripheral swaps latency and continuation number","Sub.Props"),
 M("Sub/Model.lean","incomingSubrateInd","    | _ => .ok .success e [] [.subrateChange status factor latency cont timeout]","    | _ => .ok .success { e with timing := ⟨e.timing.interval, factor, cont, latency, timeout⟩ } [] [.subrateChange status factor latency cont timeout]","C59: a refusal changes the timing","Sub.Props"),
 M("Sub/Model.lean","connectionUpdate","| .peripheral => .ok .success e [.paramReq imin imax latency timeout] []","| .peripheral => .ok .success { e with timing := ⟨imax, 1, 0, latency, timeout⟩ } [.paramReq imin imax latency timeout] []","C59: a peripheral applies its own request at once","Sub.Props"),
 M("Sub/Model.lean","paramReply","  if imin < 6 ∨","  if imin < 5 ∨","C59: a reply with interval 5 is accepted","Sub.Props"),
 M("Sub/Model.lean","paramReply","timeout ≤ (1 + latency) * imax * 10 / 4 / 10","timeout ≤ imax * 10 / 4 / 10","C59: the latency is left out of the timeout check","Sub.Props"),
 M("Sub/Model.lean","paramReply","  else if ceMin > ceMax then .ok .invalidParameters e [] []\n","","C59: event lengths in the wrong order accepted","Sub.Props"),
 M("Sub/Model.lean","paramReply","{ e with timing := ⟨imin, 1, 0, latency, timeout⟩ }\n      [.paramUpdate .success imin latency timeout]","{ e with timing := ⟨imin, 1, 0, latency, timeout⟩ }\n      [.paramUpdate .success imax latency timeout]","C59: the peer gets another interval","Sub.Props"),
 M("Sub/Model.lean","paramReply","{ e with timing := ⟨imin, 1, 0, latency, timeout⟩ }\n      [.paramUpdate","{ e with timing := ⟨imin, e.timing.factor, e.timing.cont, latency, timeout⟩ }\n      [.paramUpdate","C59: the subrate is kept on one side","Sub.Props"),
 M("Sub/Model.lean","paramRefuse","[.paramUpdate reason 0 0 0] []","[] []","C59: the peer never gets an answer","Sub.Props"),
 M("Sub/Model.lean","incomingParamReq","  else .ok .success e [.paramUpdate .unsupportedRemote 0 0 0] []","  else .ok .success e [] []","C59: the peer never gets an answer","Sub.Props",tightened=["C59_request_answered"]),
 M("Sub/Model.lean","incomingParamUpdate","{ e with timing := ⟨interval, 1, 0, latency, timeout⟩ } [] [.updateComplete status interval latency timeout]","e [] [.updateComplete status interval latency timeout]","C59: an update is reported but not applied","Sub.Props"),
 M("Sub/Model.lean","incomingParamUpdate","  | _ => .ok .success e [] [.updateComplete status interval latency timeout]","  | _ => .ok .success { e with timing := ⟨interval, 1, 0, latency, timeout⟩ } [] [.updateComplete status interval latency timeout]","C59: a refusal changes the timing","Sub.Props"),
]
C=lambda d,o,n,c,**k: M("Cs/Model.lean",d,o,n,c,"Cs.PropsPeer",**k)
cs=[
 C("put","c :: erase l c.id","c :: l","C60: the old configuration is kept beside the new one"),
 C("erase","c.id != id","c.id == id","C41: all other configurations are removed"),
 C("setDefaults","if roleEnable &&& e.caps.roles ≠ roleEnable","if roleEnable &&& e.caps.roles = 0","C40/C60: roles the controller lacks are enabled",tightened=["C60_roles"]),
 C("countChannels","if b &&& r ≠ 0 then none else countChannels bs rs (n + popcount b)","countChannels bs rs (n + popcount b)","C40: reserved channels accepted"),
 C("createMask","[0b00000011, 0, 0b10000000, 0b00000011,","[0b00000001, 0, 0b10000000, 0b00000011,","C40: channel 1 accepted"),
 C("createMask","0, 0, 0, 0, 0, 0b01100000]","0, 0, 0, 0, 0, 0]","C40: channels 77 and 78 accepted"),
 C("classMask","[0x03, 0x00, 0x80, 0x03,","[0x03, 0x00, 0x80, 0x02,","C40: channel 24 accepted in a classification"),
 C("classMask","0x00, 0xE0]","0x00, 0x60]","C40: channel 79 accepted in a classification"),
 C("mapOk","!decide (n < 15)","!decide (n < 14)","C40: 14 channels suffice"),
 C("mapOk","!decide (n < 15)","!decide (n ≤ 15)","C40: 15 channels do not suffice"),
 C("createCheck","  | none => Status.commandDisallowed\n  | some r =>\n    if e.roleEnable","  | none => Status.success\n  | some r =>\n    if e.roleEnable","C41: configurations without the peer's capabilities"),
 C("createCheck","    else if id > 3 then Status.invalidParameters\n","","C40: configuration 4 accepted",note="id ≥ numConfig may still refuse it"),
 C("createCheck","    else if mapOk createMask s.map = false then Status.invalidParameters\n","","C40: the map is not checked"),
 C("createCheck","if id ≥ e.caps.numConfig ∨ id ≥ r.numConfig then","if id ≥ e.caps.numConfig then","C41: more configurations than the peer supports"),
 C("createConfig","{ e with configs := put e.configs ⟨id, role, s, false, none⟩ } [.configReq id 1 role s] []","e [.configReq id 1 role s] []","C60: only the peer holds the configuration"),
 C("createConfig","[.configReq id 1 role s] []","[.configReq id 1 (1 - role) s] []","C60: both sides take the same role"),
 C("createConfig","    .ok Status.success { e with configs := put e.configs ⟨id, role, s, false, none⟩ } []\n      (tell","    .ok Status.success { e with configs := put e.configs ⟨id, role, s, true, none⟩ } []\n      (tell","C41: a new configuration is enabled already"),
 C("classify","if tooEarly e.classified now = true then refuse e Status.commandDisallowed\n  else ","","C40: classifications without a pause"),
 C("tooEarly","now < t + 1000000000","now < t + 100000000","C40: a tenth of a second is enough"),
 C("classify","{ e with classified := some now, configs := e.configs.map (·.withMap m) } [.mapInd m] []","{ e with classified := some now, configs := e.configs.map (·.withMap m) } [] []","C40: the peer is not told the map"),
 C("classify","{ e with classified := some now, configs := e.configs.map (·.withMap m) }","{ e with classified := some now }","C40: the map is not applied"),
 C("removeConfig","{ e with configs := erase e.configs id } [.configReq id 0 0 removeSettings] []","e [.configReq id 0 0 removeSettings] []","C41: the configuration stays"),
 C("securityEnable","  else if e.encrypted = false then refuse e Status.insufficientSecurity\n  else if e.hostSupport = false then refuse e Status.commandDisallowed\n  else .ok","  else if e.hostSupport = false then refuse e Status.commandDisallowed\n  else .ok","C61: security without encryption"),
 C("setParameters","    if c.enabled = true then refuse e Status.commandDisallowed\n    else if p.minSubevent","    if p.minSubevent","C41: parameters of a running procedure are changed"),
 C("setParameters","p.antenna ≥ e.caps.antennas","p.antenna > e.caps.antennas","C41: antenna configuration one too large",tightened=["C61_parameters"]),
 C("setProc","if c.id = id then { c with proc := some p } else c","{ c with proc := some p }","C41: parameters of all configurations are changed"),
 C("procedureEnable","    | none => refuse e Status.commandDisallowed\n    | some p =>","    | none => .ok Status.success { e with configs := setEnabled e.configs id true } [] []\n    | some p =>","C41: a procedure without parameters is enabled"),
 C("onCapsReq","{ e with remote := some c } [.capsRsp Status.success e.caps.sent]","e [.capsRsp Status.success e.caps.sent]","C60: the peer's capabilities are forgotten"),
 C("onCapsRsp","else .ok 0 { e with remote := some c } []","else .ok 0 { e with remote := some e.caps } []","C60: one's own capabilities taken for the peer's"),
 C("configReqOk","  s.selection == 1 &&\n","","C60: selection 3b is accepted"),
 C("configReqOk","decide (s.jump ≤ 8)","decide (s.jump < 8)","C60: jump 8 is refused"),
 C("onConfigReq","[.configRsp Status.unsupportedLlParameter id] []","[.configRsp Status.success id] []","C60: only the creator holds the configuration"),
 C("onConfigReq","put e.configs ⟨id, if role = 0 then 1 else 0, s, false, none⟩ }","put e.configs ⟨id, role, s, false, none⟩ }","C60: both sides have the same role"),
 C("onConfigReq","      [.configRsp Status.success id]\n      (tell e.mask.config (.config Status.success id true (if role = 0 then 1 else 0)","      [.configRsp Status.success id]\n      (tell e.mask.config (.config Status.success id true role","C60: the peer's host is told the wrong role"),
 C("onConfigRsp","{ e with configs := erase e.configs id } [] (tell e.mask.config (.config st id true c.role c.s 0))","e [] (tell e.mask.config (.config st id true c.role c.s 0))","C60: a refused configuration is kept"),
 C("onSecReq","  if e.encrypted = false then .ok 0 e [.secRsp Status.insufficientSecurity] []\n  else if e.hostSupport","  if e.hostSupport","C61: the peer's security without encryption"),
 C("onSecRsp","  if st ≠ Status.success then .ok 0 e [] (tell e.mask.sec (.sec st))\n  else .ok","  .ok","C61: a refusal counts as security"),
 C("reportStarted","    | none => .abort\n    | some p => .ok 0 e out","    | none => .ok 0 e out []\n    | some p => .ok 0 e out","C41 (code fixed): no abort"),
 C("onCsReq","    if e.iv = 0 then .ok 0 e [.csRsp Status.pinOrKeyMissing id zeroSlot] []\n    else if","    if","C61: a procedure without security is agreed to"),
 C("onCsReq","    else if e.fae = none then .ok 0 e [.csRsp Status.commandDisallowed id zeroSlot] []\n","","C61: a procedure without a frequency error table is agreed to"),
 C("onCsReq","  | none => .ok 0 e [.csRsp Status.invalidLlParameters 0 zeroSlot] []","  | none => .ok 0 e [.csRsp Status.success 0 zeroSlot] []","C61: a procedure for an unknown configuration is agreed to"),
 C("onMapInd","if c.enabled then c.withMap m else c","c","C40: the peer's map is ignored"),
 C("onTermReq",".ok 0 e [.termRsp id count","  .ok 0 { e with configs := erase e.configs id } [.termRsp id count","C41: a terminated procedure removes the configuration"),
]
BR="Br.PropsFail Verif.Br.PropsConnect Verif.Br.PropsPair Verif.Br.PropsData Verif.Br.PropsSync Verif.Br.PropsInquiry Verif.Br.PropsRemote"
B=lambda d,o,n,c,**k: M("Br/Model.lean",d,o,n,c,BR,**k)
br=[
 B("startInquiry","length < 1 ∨ length > 0x30","length > 0x30","C67: an inquiry of no length is accepted"),
 B("startInquiry","now + length * 1280000000","now + length * 128000000","C67: the inquiry ends too early"),
 B("cancelInquiry",".ok Status.success { s with inq := none } [] []",".ok Status.success s [] []","C67: a cancelled inquiry goes on"),
 B("createConnection","if s.page.isSome then refuse s Status.commandDisallowed\n  else","","C62: a second attempt replaces the first, which is never answered"),
 B("createConnection","else if (aclOf s a).isSome then refuse s Status.alreadyExists\n","","C64: a second connection with the same device"),
 B("createConnection","now + s.pageTimeout * 625000⟩","now⟩","C62: every attempt times out at once"),
 B("cancelConnection","{ s with page := none } [] (tell s 0x03 (.connComplete Status.unknownConnection 0 a .acl))","{ s with page := none } [] []","C62: a cancelled attempt is never answered"),
 B("cancelConnection","if p.addr ≠ a then refuse s Status.unknownConnection\n    else","","C62: cancelling for another device ends the attempt"),
 B("acceptorRole","if trySwitch && allow then .central else .peripheral","if trySwitch then .central else .peripheral","C64: two centrals when the pager does not allow the switch"),
 B("pagerRole","if allow && trySwitch then .peripheral else .central","if allow then .peripheral else .central","C64: two peripherals"),
 B("acceptPage","[(p.addr, .pageRsp trySwitch)]","[(p.addr, .pageRsp false)]","C64: the pager is not told of the role switch"),
 B("acceptPage","{ s' with scan := none, page","{ s' with page","C63: the request is not cleared when accepted"),
 B("acceptPage","page := if s.page.any (fun q => q.addr = p.addr) then none else s.page","page := s.page","C62: an attempt answered by the peer's own connection is answered again"),
 B("acceptConnection","match s.scan.filter (fun p => p.addr = a) with","match s.scan with","C63: accepting another device accepts the one that asked"),
 B("rejectConnection","{ s with later := s.later ++ [(a, reason)] }","s","C63: the rejection is never sent"),
 B("sendRejects",".pageReject r.2)), s.later",".pageReject 0)), s.later","C63: a rejection with the status success"),
 B("tick","paging { s with later := [] } now","paging s now","C63: rejections are sent again at every tick"),
 B("paging","({ s with page := none }, [], [.connComplete Status.pageTimeout 0 p.addr .acl])","({ s with page := none }, [], [])","C62: a timeout is not reported"),
 B("paging","if now ≥ p.timeout then ({ s with page := none }, [], [","if now ≥ p.timeout then (s, [], [","C62: a timeout is reported again and again"),
 B("paging","[(p.addr, .page s.info.cod p.allow)]","[(p.addr, .page s.info.cod false)]","C64: the page does not say that a role switch is allowed"),
 B("paging","[(p.addr, .page s.info.cod p.allow)]","[]","C62: the page is never sent"),
 B("inquiring","tell s 0x01 .inqComplete)","[])","C67: the end of the inquiry is not reported"),
 B("inquiring","if now ≥ i.timeout then ({ s with inq := none }","if now ≥ i.timeout then (s","C67: the end of the inquiry is reported again and again"),
 B("endAcl","acl := erase s.acl h, lm := lm","acl := s.acl, lm := lm","C64: a connection that ended is kept"),
 B("endAcl","if (scoOf s.sco a).isSome then none\n  else","","C65: no abort when a synchronous connection is left"),
 B("disconnect","[(c.addr, .disconnect hostReason)] (tell s 0x05 (.disconnComplete h reason))","[] (tell s 0x05 (.disconnComplete h reason))","C64: the peer is not told of the end"),
 B("checkExpiring","if c.last + 3000000000 < now then disconnect s h Status.connectionTimeout Status.connectionTimeout\n    else","","C64: a dead connection never ends"),
 B("switchRole","if role ≠ c.role then","if role = c.role then","C64: the role switch is asked for by the wrong device",tightened=["C64_switch","C64_switch_same"]),
 B("onRoleReq","{ s with acl := update s.acl h { c with role := c.role.other } } [(src, .roleRsp Status.success)]","s [(src, .roleRsp Status.success)]","C64: the peer does not change its role"),
 B("onRoleReq","[(src, .roleRsp Status.roleChangeNotAllowed)]","[(src, .roleRsp Status.success)]","C64: a refused switch is answered with success"),
 B("onRoleRsp","if st ≠ Status.success then","if st = Status.success then","C64: the roles change when the switch was refused"),
 B("onPage","if s.pageScan = false then .ok 0 s [] []\n  else","","C63: a device that is not connectable reports requests"),
 B("onPage","else if s.scan.isSome then .ok 0 s [] []\n","","C63: a second request replaces the first"),
 B("onPage","else if (aclOf s src).isSome then .ok 0 s [] []\n","","C64: a request of a connected device"),
 B("onPageReject","(tell s 0x03 (.connComplete reason 0 src .acl))","[]","C62: a rejected attempt is never answered"),
 B("onPageReject","if p.addr ≠ src then .ok 0 s [] []\n    else .ok 0 { s with page := none } []",".ok 0 { s with page := none } []","C62: a rejection by a stranger ends the attempt"),
 B("onPageRsp",".ok 0 { s' with page := none } []",".ok 0 s' []","C62: the attempt stays open after its answer"),
 B("onPageRsp","if p.addr ≠ src then .ok 0 s [] []\n    else\n      match connect","match connect","C64: a response of a stranger makes a connection"),
 B("setupSync","if scoPending s c.addr then refuse s Status.commandDisallowed\n    else","","C66: two requests at a time"),
 B("onScoReq","if Sco.isExtended p then .sentEsco else .sentSco","if Sco.isExtended p then .sentSco else .sentEsco","C66: the kinds are swapped"),
 B("acceptSync","[(a, .scoRsp st l)] [syncEvent st h a l]","[(a, .scoRsp st noLink)] [syncEvent st h a l]","C66: the link parameters are not sent"),
 B("acceptSyn","(update s.sco h { c with state := .closed }) a).map (fun t => (t, bad, 0, noLink))","(update s.sco h { c with state := .closed }) a).map (fun t => (t, Status.success, 0, noLink))","C66: a failed negotiation is answered with success"),
 B("rejectSync","[(a, .scoRsp (rejectReason reason) noLink)]","[(a, .scoRsp reason noLink)]","C66: a rejection with the reason 0 looks like success",tightened=["C66_rejected"]),
 B("onScoRsp","match cancelSyn s.sco src with","match some s.sco with","C66: a refused connection is kept"),
 B("onScoDisc","sco := erase s.sco h } [] (tell s 0x05 (.disconnComplete h reason))","sco := erase s.sco h } [] []","C66: the end is not reported to the peer"),
 B("onSco","[.sco h data]","[.sco h (data.drop 1)]","C66: data is changed"),
 B("onInquiry","else if lap ∉ s.iac then .ok 0 s [] []\n","","C67: devices answer inquiries with another access code"),
 B("onInquiry","[(src, .inqRsp 2 s.info.cod rssi s.info.eir)]","[(src, .inqRsp 2 s.info.cod rssi [])]","C67: the extended response is lost"),
 B("onInqRsp","(tell s 0x22 (.inqResult 1 src cod rssi eir))","[]","C67: results with RSSI are not reported"),
 B("onAcl","[.acl h (if pb = 0 then 2 else pb) bc data]","[.acl h pb bc data]","C68: the boundary flag of the host is kept"),
 B("onAcl","[.acl h (if pb = 0 then 2 else pb) bc data]","[.acl h (if pb = 0 then 2 else pb) bc data, .acl h (if pb = 0 then 2 else pb) bc data]","C68: data arrives twice"),
 B("sendAcl","[(c.addr, .acl pb bc data)] [.completed h 1]","[(c.addr, .acl pb bc data)] []","C68: packets are not acknowledged"),
 B("sendAcl","| none => .ok 0 s [] [.completed h 1]","| none => .ok 0 s [] []","C68: packets for an unknown connection are not acknowledged"),
 B("dispatch","[(src, .versionRsp s.info.version (s.info.subversion % 256) s.info.company)]","[(src, .versionRsp s.info.version s.info.company (s.info.subversion % 256))]","C69: company and subversion swapped"),
 B("dispatch","report s src 0x0b (fun h => .features h f)","report s src 0x0b (fun _ => .features 0 f)","C69: the features are reported for the wrong connection"),
 B("dispatch","[(src, .featuresRsp s.info.features0)]","[(src, .featuresRsp s.info.features2)]","C69: the wrong page of features"),
 B("command","[(a, .hostFeaturesReq), (a, .nameReq)]","[(a, .nameReq)]","C69: the host features are not asked for"),
 B("lmpFeatures","if page = 1 then some i.hostFeatures else if page = 0 then some i.features0 else if page = 2 then some i.features2 else none","some i.features0","C65/C69: pages outside the table answered with page 0"),
 B("addLink","if lm.length ≥ 7 then none else","","C65: an eighth link does not abort"),
 B("reset","(s.sco.map (fun e => (e.2.addr, .scoDisc Status.remoteUserTerminated)) ++\n      s.acl.map (fun e => (e.2.addr, .disconnect Status.remoteUserTerminated)))","[]","C64: peers are not told of a reset"),
 B("reset","page := none, scan := none, inq := none","scan := none, inq := none","C62: attempts survive a reset"),
 B("touch","{ c with last := now }","{ c with last := 0 }","C64/C68: connections end although packets arrive"),
]
HC="Hci.PropsAnswer Verif.Hci.PropsConfig Verif.Hci.PropsReset"
H=lambda d,o,n,c,**k: M("Hci/Model.lean",d,o,n,c,HC,**k)
T=lambda d,o,n,c,**k: M("Hci/Table.lean",d,o,n,c,HC,**k)
hci=[
 T("handlers","(0x040a, [.check 0x040a, .status 0x040a])","(0x040a, [.check 0x040a])","C70: the command is not answered"),
 T("handlers","(0x0c1a, [.check 0x0c1a, .complete 0x0c1a])","(0x0c1a, [.check 0x0c1a, .complete 0x0c19])","C70: answered with the opcode of another command"),
 T("handlers","(0x2006, [.check 0x2006, .complete 0x2006])","(0x2006, [.check 0x2006, .complete 0x2006, .status 0x2006])","C70: answered twice"),
 T("handlers","(0x0406, [.check 0x0406, .ite [.toLl, .ret] [], .status 0x0406])","(0x0406, [.check 0x0406, .ite [.toLl] [], .status 0x0406])","C70: Disconnect is answered by the link layer and again"),
 T("handlers","(0x1405, [.check 0x1405, .complete 0x1405])","(0x1405, [.complete 0x1405])","C70: a malformed command is executed"),
 T("handlers","(0x0c1f, [.check 0x0c1f, .complete 0x0c1f])","(0x0c1f, [.check 0x0c1e, .complete 0x0c1f])","C70: the view of another command"),
 T("handlers","  (0x1405, [.check 0x1405, .complete 0x1405]),\n","","C71: Read RSSI is supported and not implemented"),
 T("handlers","(0x2006, [.check 0x2006, .complete 0x2006])","(0x2006, [.check 0x2006, .ite [.fatal] [], .complete 0x2006])","C70: some parameters stop the controller"),
 H("bit","(bytes.getD (i / 10) 0).testBit (i % 10)","(bytes.getD (i / 8) 0).testBit (i % 8)","C71/C72: the wrong bit of the supported commands"),
 H("supported","  op = 0x1002 || (op","  (op","C71: Read Local Supported Commands is supported by its bit only"),
 H("supported","    | none => false\n    | some i => bit","    | none => true\n    | some i => bit","C71: commands without a bit are supported"),
 H("throughLoopback"," || op = 0x1802\n","\n","C73: the loopback cannot be left"),
 H("throughLoopback","  op = 0x0c03 || op = 0x0c31","  op = 0x0c31","C73: Reset is sent back"),
 H("throughLoopback","op = 0x1005 ||","op = 0x1005 || op = 0x1009 ||","C73: one more command is executed"),
 H("after","then ⟨false, true⟩","then ⟨s.loopback, true⟩","C73: the loopback survives Reset"),
 H("after","then ⟨false, true⟩","then { s with loopback := false }","C73: the quirk goes on after Reset"),
 H("after","loopback := m.payload.head? = some 1","loopback := m.payload.head? ≠ some 0","C73: an unknown mode puts the loopback on"),
 H("after","  if m.formed = false then s\n  else if m.op = 0x0c03","  if m.op = 0x0c03","C70/C73: a malformed Reset resets"),
 H("Handle","Handle c s m [.hardwareError 0x42] .done s","Handle c s m [.complete m.op] .done s","C73: the quirk answers the command"),
 H("Handle","Handle c s m [.loopback] .done s","Handle c s m [.loopback, .complete m.op] .done s","C73: a command is sent back and answered"),
 H("Handle","      Handle c s m [] .crash s","      Handle c s m [] .done s","C71: a missing command is ignored"),
 H("Handle","      Handle c s m [.complete m.op] .done s","      Handle c s m [.status m.op] .invalid s","C70: an unknown command is reported as invalid"),
 H("Run","[.hardwareError 0x43] (.over .invalid)","[.hardwareError 0x43] .returned","C70: a malformed command is not reported"),
 H("setBit","(fun b => if set then b ||| 1 <<< (i % 10) else","(fun b => if set then b ^^^ 1 <<< (i % 10) else","C72: setting a command twice removes it"),
 H("setBit","else b &&& (255 ^^^ (1 <<< (i % 10)) % 256))","else b &&& (1 <<< (i % 10)))","C72: switching a feature off removes other commands"),
 H("setBits","l.foldl (setBit set) bytes","l.tail.foldl (setBit set) bytes","C72: the first command of a feature is left out"),
 H("apply","  | some b => setBits b bytes l","  | some _ => setBits true bytes l","C72: a feature cannot be switched off"),
 H("configured","apply f.iso isochronousCommands","apply f.privacy isochronousCommands","C72: a feature adds the commands of another"),
 H("configured","apply f.power powerControlCommands (apply f.sounding","(apply f.sounding","C72: power control is ignored"),
 H("Preset.bytes","  | .laird => lairdBytes","  | .laird => intelBytes","C71: the wrong preset"),
 H("csrComplete","if p.length < 3 then .crash else .answer","if p.length < 2 then .crash else .answer","C70: the write outside the parameters",tightened=["C70_csrShort_violated"]),
 H("csr","  if supported = false then .unknown\n  else if p = []","  if p = []","C70: controllers without CSR commands answer them",tightened=["C70_csrUnsupported"]),
]
LI="Link.PropsPhy Verif.Link.PropsEnc Verif.Link.PropsData"
K=lambda d,o,n,c,**k: M("Link/Model.lean",d,o,n,c,LI,**k)
link=[
 K("unmasked","d.mask.testBit (code - 1)","d.mask.testBit code","C74 to C77: events follow the wrong bit of the mask"),
 K("leUnmasked","d.leMask.testBit (sub - 1)","d.leMask.testBit sub","C75: PHY Update Complete follows the wrong bit"),
 K("wanted","if any then d.supported else phys","if any then 1 else phys","C75: no preference means 1M only"),
 K("wanted","if any then d.supported else phys","phys","C75: the flag for no preference is ignored"),
 K("beyond","phys &&& (255 ^^^ d.supported) ≠ 0","phys &&& d.supported ≠ 0","C75: supported PHYs are refused"),
 K("setDefaultPhy","{ d with defTx := wanted d anyTx tx, defRx := wanted d anyRx rx }","{ d with defTx := wanted d anyTx tx, defRx := wanted d anyTx tx }","C75: the preference for receiving is lost",tightened=["C75_default"]),
 K("setPhy","{ put d h { c with initiated := true } with reqTx","{ put d h c with reqTx","C75: the peripheral's Set PHY is not answered if nothing changes"),
 K("setPhy","[(h, .phyReq (wanted d anyTx tx) (wanted d anyRx rx))]","[(h, .phyReq (wanted d anyRx rx) (wanted d anyTx tx))]","C75: the directions are swapped in the request"),
 K("setPhy","[(h, .phyReq (wanted d anyTx tx) (wanted d anyRx rx))]","[]","C75: the request is not sent"),
 K("setPhy","reqTx := wanted d anyTx tx, reqRx := wanted d anyRx rx }","reqTx := wanted d anyTx tx }","C75: the requested PHY for receiving is not kept"),
 K("select","if phys.testBit 2 then .coded else if phys.testBit 1 then .m2 else","if phys.testBit 1 then .coded else if phys.testBit 2 then .m2 else","C75: 2M and coded are swapped"),
 K("select","if phys.testBit 0 then .m1 else current","if phys.testBit 0 then .m1 else .m1","C75: no common PHY falls back to 1M"),
 K("indicate","if selected = current then 0 else match","match","(the indication names a PHY that does not change; same effect)",note="Equivalent for the properties: the receiver selects the named PHY, which it uses already."),
 K("indicate","    | .m2 => 2\n","    | .m2 => 4\n","C75: the peripheral changes to coded while the central uses 2M"),
 K("onPhyReq","[(h, .phyRsp d.defTx d.defRx)]","[(h, .phyRsp d.defRx d.defTx)]","C75: the peripheral's preferences are swapped"),
 K("onPhyReq","{ c with tx := select (rx &&& d.defTx) c.tx, rx := select (tx &&& d.defRx) c.rx }","{ c with tx := select (tx &&& d.defTx) c.tx, rx := select (rx &&& d.defRx) c.rx }","C75: the central takes the peripheral's directions for its own"),
 K("onPhyReq","[(h, .phyInd (indicate (select (rx &&& d.defTx) c.tx) c.tx) (indicate (select (tx &&& d.defRx) c.rx) c.rx))]","[(h, .phyInd (indicate (select (tx &&& d.defRx) c.rx) c.rx) (indicate (select (rx &&& d.defTx) c.tx) c.tx))]","C75: the directions of the indication are swapped"),
 K("onPhyReq","c.tx || select (tx &&& d.defRx) c.rx ≠ c.rx) && leUnmasked","c.tx && select (tx &&& d.defRx) c.rx ≠ c.rx) && leUnmasked","C75: a change of one direction is not reported"),
 K("onPhyRsp","if c.role = .peripheral then none\n","if c.role = .central then none\n","C75: the central aborts"),
 K("onPhyRsp","rx := select (tx &&& d.reqRx) c.rx, initiated","rx := select (tx &&& d.defRx) c.rx, initiated","C75: the central uses its default instead of the request"),
 K("onPhyRsp","      tell (leUnmasked d 0x0c) (.phyDone","      tell (leUnmasked d 0x0c && c.initiated) (.phyDone","C75: overlapping requests of the central are not all answered"),
 K("onPhyInd","tx := select pToC c.tx, rx := select cToP c.rx, initiated","tx := select cToP c.tx, rx := select pToC c.rx, initiated","C75: the peripheral swaps the directions"),
 K("onPhyInd","rx := select cToP c.rx, initiated := false }","rx := select cToP c.rx }","C75: the peripheral reports updates nobody has asked for",note=""),
 K("onPhyInd","≠ c.rx || c.initiated))","≠ c.rx))","C75: the peripheral's Set PHY is not answered"),
 K("enable","tasks := d.tasks ++ [e]","tasks := e :: d.tasks","C74: later procedures overtake earlier ones"),
 K("enable","  | none => some ⟨unknownConnection, d, [], []⟩\n  | some _ => some ⟨0, { d with tasks := d.tasks ++ [e] }","  | none => some ⟨0, d, [], []⟩\n  | some _ => some ⟨0, { d with tasks := d.tasks ++ [e] }","C74: encryption of an unknown connection is accepted",tightened=["C74_unknown"]),
 K("runTask","{ c with ltk := some e.ltk }","c","C74: any key is accepted"),
 K("runTask","[(e.handle, .enc e.rand e.ediv e.ltk)]","[]","C74: the peripheral's host is not asked"),
 K("runTask",".enc e.rand e.ediv e.ltk)",".enc e.rand 0 e.ltk)","C74: EDIV is lost"),
 K("reply","if c.encrypted then some ⟨0, d, [(h, .encRsp 0 ltk)]","if c.encrypted then some ⟨0, d, []","C74: a key refresh is not answered"),
 K("reply","put d h { c with encrypted := true }, [(h","d, [(h","C74: the peripheral's end is not encrypted"),
 K("reply","      some ⟨0, put d h { c with encrypted := true }, [(h, .encRsp 0 ltk)],","      some ⟨0, put d h { c with encrypted := true }, [],","C74: the central's host is never told"),
 K("reply","if unmasked d 0x59 then [.encChangeV2 0 h true] else tell","tell","C74: a host that has unmasked version 2 gets version 1",),
 K("reply","tell (unmasked d 0x08) (.encChange 0 h true)⟩\n\n/-- LeLongTermKeyRequestNeg","tell (unmasked d 0x08) (.encChange 0 h false)⟩\n\n/-- LeLongTermKeyRequestNeg","C74: the peripheral's host is told that encryption is off"),
 K("negative",".encRsp keyMissing",".encRsp 0","C74: a missing key looks like a key"),
 K("negative","[(h, .encRsp keyMissing (List.replicate 16 0))]","[]","C74: a missing key is never told to the central's host"),
 K("onEnc","tell (unmasked d 0x3e) (.ltkRequest h rand ediv)","tell (unmasked d 0x3e && c.encrypted = false) (.ltkRequest h rand ediv)","C74: a key refresh is not put to the host"),
 K("onEnc",".ltkRequest h rand ediv)",".ltkRequest h [] ediv)","C74: the random number is lost"),
 K("rspStatus","if ltk ≠ k then authenticationFailure else 0","0","C74: any key is accepted"),
 K("rspStatus","if st ≠ 0 then st else match","match","C74: a negative reply is taken for a wrong key"),
 K("onEncRsp","    some ⟨0, put d h { c with encrypted := true }, [], tell (unmasked d 0x08) (.encChange 0 h true)⟩","    some ⟨0, d, [], tell (unmasked d 0x08) (.encChange 0 h true)⟩","C74: the central's end is not encrypted"),
 K("onEncRsp","(.encChange (rspStatus c st ltk) h false)","(.encChange 0 h true)","C74: a failure is told as success"),
 K("onEncRsp","if c.encrypted then some ⟨0, d, [], tell (unmasked d 0x30) (.keyRefresh (rspStatus c st ltk) h)⟩","if c.encrypted then some ⟨0, d, [], []⟩","C74: a key refresh is not told to the central's host"),
 K("ask","  | none => some ⟨unknownConnection, d, [], []⟩\n  | some _ => some ⟨0, d, [(h, p)], []⟩","  | none => some ⟨unknownConnection, d, [], []⟩\n  | some _ => some ⟨0, d, [(h, p), (h, p)], []⟩","C77: each question is answered twice"),
 K("onFeatRsp","(.features st h f)","(.features st h d.features)","C77: the host is told its own features"),
 K("sendAcl","[(h, .acl pb bc data)], [.completed h 1]","[(h, .acl pb bc data)], []","C76: data is not acknowledged"),
 K("sendAcl","[(h, .acl pb bc data)], [.completed h 1]","[(h, .acl pb bc data)], [.completed h 2]","C76: data is acknowledged twice"),
 K("sendAcl","if bc ≠ 0 then none\n  else match","match","C76 (code fixed): no abort"),
 K("receive","[.acl h (if pb = 0 then 2 else pb) bc data]","[.acl h pb bc data]","C76: the boundary flag is kept"),
 K("receive","[.acl h (if pb = 0 then 2 else pb) bc data]","[.acl h (if pb = 0 then 2 else pb) bc (data.take 27)]","C76: long data is cut"),
 K("receive",".verRsp d.version (d.subversion % 256) d.company",".verRsp d.version (d.subversion / 256) d.company","C77: the wrong half of the subversion"),
 K("receive","(.version h v m s)","(.version h v s m)","C77: company and subversion are swapped"),
 K("receive","[(h, .featRsp d.features 0)]","[(h, .featRsp (d.features % 256) 0)]","C77: the features are cut"),
]
AP="Apcf.Props"
Q=lambda d,o,n,c,**k: M("Apcf/Model.lean",d,o,n,c,AP,**k)
apcf=[
 Q("hasIndex","s.filters.any (fun f => f.index = i)","s.filters.any (fun f => f.index = i + 1)","C78: the wrong filter is looked for"),
 Q("clearIndex","filter (fun e => !(e.index = i)) }","filter (fun e => e.index = i) }","C78: deleting a filter deletes the conditions of the others"),
 Q("clearIndex","fun k => (s.lists k).filter (fun e => !(e.index = i)) }","fun k => if k = .name then s.lists k else (s.lists k).filter (fun e => !(e.index = i)) }","C78: the names of a deleted filter stay"),
 Q("spaces","(cap + 256 - n % 256) % 256","(cap + 255 - n % 256) % 256","C78: the number of free places is wrong"),
 Q("update","if hasIndex s e.index = false then (unknownConnection, l)\n  else match a","match a","C78: conditions of unknown filters are taken"),
 Q("update","if l.length = cap then","if l.length = cap + 1 then","C78: one condition too many"),
 Q("update","l.filter (fun x => !(x = e))","l.filter (fun x => !(x.data = e.data))","C78: deleting a condition deletes equal conditions of other filters"),
 Q("update","l.filter (fun x => !(x = e))","l.erase e","C78: only one of several equal conditions is deleted"),
 Q("update","l.filter (fun x => !(x.index = e.index))","[]","C78: clearing the conditions of a filter clears all"),
 Q("update","(invalid, l)","(0, l)","C78: an unknown action succeeds"),
 Q("addFilter","if hasIndex s i then (.answer invalid (spaces c.filters s.filters.length), s)\n  else if","if","C78: two filters with the same index"),
 Q("addFilter","(.answer 0 (spaces c.filters s.filters.length - 1), {","(.answer 0 (spaces c.filters s.filters.length), {","C78: the free places are counted before"),
 Q("addFilter","if spaces c.filters s.filters.length = 0 then","if spaces c.filters s.filters.length = 1 then","C78: the last place cannot be used"),
 Q("deleteFilter","    clearIndex { s with filters := s.filters.filter (fun f => !(f.index = i)) } i)","    { s with filters := s.filters.filter (fun f => !(f.index = i)) })","C78: the conditions of a deleted filter stay"),
 Q("deleteFilter","((spaces c.filters s.filters.length + 1) % 256)","(spaces c.filters s.filters.length)","C78: the free places are counted before"),
 Q("clearFilters","{ s with filters := [], lists := fun _ => [] }","{ s with filters := [] }","C78: conditions survive the clearing of the filters"),
 Q("split","e.data.take (e.data.length / 2), e.data.drop (e.data.length / 2)","e.data.take (e.data.length / 2), e.data.take (e.data.length / 2)","C78: the mask is lost"),
 Q("condition","{ s with lists := fun j => if j = k then r.2 else s.lists j }","{ s with lists := fun _ => r.2 }","C78: a condition is stored in all lists"),
 Q("condition","(spaces (c.list k) r.2.length)","(spaces (c.list .address) r.2.length)","C78: the places of another kind are reported"),
 Q("step","⟨e.index, 2, List.replicate 6 0, []⟩","⟨0, 2, List.replicate 6 0, []⟩","C78: clearing addresses clears those of filter 0"),
 Q("step","  | .condition .address a formed e => if formed then condition c s .address a ⟨e.index, e.tag, e.data, []⟩","  | .condition .address a formed e => if formed then condition c s .address a ⟨e.index, 0, e.data, []⟩","C78: the address type is lost"),
 Q("step","  | .reset => (.answer 0 0, .fresh)","  | .reset => (.answer 0 0, { s with filters := [] })","C78: conditions survive Reset"),
 Q("step","  | .discovery formed => if formed then (.answer invalid 0, s) else (.refused, s)","  | .discovery _ => (.answer invalid 0, s)","C78: a short discovery command is answered"),
]
G=lambda d,o,n,c,**k: M("Reg/Model.lean",d,o,n,c,"Reg.Props",**k)
reg=[
 G("reset","    pageTimeout := 0x2000\n    acceptTimeout","    acceptTimeout","C79: the page timeout survives Reset"),
 G("reset","    voice := 0x0060\n    auth := 0\n    defaultPolicy","    voice := 0x0060\n    defaultPolicy","C79: authentication survives Reset"),
 G("reset","    laps := [0x33]\n","","C79: the access codes survive Reset"),
 G("reset","    leHostFeatures := 0\n    octets := 0x001b\n    time := 0x0148\n    loopback","    octets := 0x001b\n    time := 0x0148\n    loopback","C79: host features survive Reset"),
 G("reset","    localName := List.replicate 248 0\n","    localName := []\n","C79: the name is empty after Reset"),
 G("reset","    conns := fun _ => none\n    leConns := []\n    hostFeatures := 0\n    pageScan := false\n    inquiryScan := false\n    inquiryScanInterval := 0x1000\n    inquiryScanWindow := 0x0012\n    pageTimeout","    leConns := []\n    hostFeatures := 0\n    pageScan := false\n    inquiryScan := false\n    inquiryScanInterval := 0x1000\n    inquiryScanWindow := 0x0012\n    pageTimeout","C79: connections survive Reset"),
 G("write","(0, { s with pageTimeout := one v })","(0, { s with acceptTimeout := one v })","C79: the wrong timeout is written"),
 G("write","if one v > 7 then (invalid, s) else (0, { s with defaultPolicy","if one v > 8 then (invalid, s) else (0, { s with defaultPolicy","C79: a wrong policy is accepted"),
 G("write","if v.length > c.iacs then v.take c.iacs else v","v","C79: too many access codes are kept"),
 G("write","pageScan := one v = 3 || one v = 2 }","pageScan := one v = 2 }","C79: both scans cannot be enabled"),
 G("write","inquiryScan := one v = 3 || one v = 1, pageScan := one v = 3 || one v = 2 }","inquiryScan := one v = 3 || one v = 2, pageScan := one v = 3 || one v = 1 }","C79: the scans are swapped"),
 G("write","(0, { s with scoFlow := one v = 1 })","(0, { s with scoFlow := one v = 0 })","C79: flow control is inverted"),
 G("write","v.getD 0 0 > 0xfb","v.getD 0 0 > 0xfa","C79: the largest length is refused"),
 G("write","v.getD 1 0 < 0x148 ∨","","C79: short times are accepted"),
 G("write","then (invalid, s)\n    else (0, { s with octets := v.getD 0 0, time := v.getD 1 0 })","then (invalid, { s with octets := v.getD 0 0 })\n    else (0, { s with octets := v.getD 0 0, time := v.getD 1 0 })","C79: a refused value is kept"),
 G("read","  | .classOfDevice => [s.classOfDevice]","  | .classOfDevice => [s.voice]","C79: another parameter is read"),
 G("read","  | .inquiryMode => [0]\n","  | .inquiryMode => [s.inquiryMode]\n","C79 (code fixed): the inquiry mode is read"),
 G("Feature.mask","  | .secureConnections => 8","  | .secureConnections => 4","C79: the wrong bit of page 1"),
 G("setFeature","if on then s.hostFeatures ||| f.mask else","if on then f.mask else","C79: one feature switches the others off"),
 G("clear","x &&& ((2 ^ 64 - 1) ^^^ m)","x &&& m","C79: switching a feature off keeps only it"),
 G("readFeatures","some [page, 2, s.hostFeatures]","some [page, 2, c.page0]","C79: page 1 is page 0"),
 G("setLeFeature","if bit ≥ 64 ∨ value > 1","if bit > 64 ∨ value > 1","C79: feature bit 64"),
 G("setLeFeature","  else if s.leConns ≠ [] then (disallowed, s)\n","","C79: features change during a connection"),
 G("setLeFeature","if 1 <<< bit = 0x4000000000 then (0, { s with leHostFeatures := host })","if 1 <<< bit = 0x4000000000 then (0, s)","C79: subrating is not reported"),
 G("setLeFeature","{ s with csHost := value ≠ 0, leHostFeatures","{ s with leHostFeatures","C79: channel sounding commands are never allowed"),
 G("readPolicy","  | some x => (0, x.policy)","  | some x => (0, x.policy ||| s.defaultPolicy)","C79: the default is mixed into the settings of a connection"),
 G("writePolicy","some ⟨v⟩ else s.conns k","some ⟨v⟩ else some ⟨v⟩","C79: the settings of all connections are written"),
 G("exec","some ⟨s.defaultPolicy⟩","some ⟨0⟩","C79: new connections do not take the default"),
 G("exec","| .setFeature f on => (.answer 0 [], setFeature s f (on = 1))","| .setFeature f on => (.answer 0 [], setFeature s f (on = 0))","C79: features are inverted"),
 G("step","if s.loopback = 1 ∧ x.looped = true then","if x.looped = true ∧ s.loopback ≠ 0 then","C79: the remote loopback mode sends commands back"),
 G("Act.looped","  | .reset => false\n","","C79: Reset does not leave the loopback mode"),
]
X=lambda d,o,n,c,**k: M("Pdl/Model.lean",d,o,n,c,"Pdl.Props",**k)
XL=lambda f,d,o,n,c,**k: M("Pdl/Layouts"+f+".lean",d,o,n,c,"Pdl.Props",**k)
pdl=[
 X("bits","(n % 2 == 1) :: bits w (n / 2)","bits w (n / 2) ++ [n % 2 == 1]","C80: numbers are written with the most significant bit first, and read the other way"),
 X("enc","  | .fixed w c k, v, pl => bits w c ++ enc k v pl","  | .fixed w _ k, v, pl => bits w 0 ++ enc k v pl","C80: a fixed field is written as zero, so the packet is not accepted"),
 X("enc","  | .reserved w k, v, pl => bits w 0 ++ enc k v pl","  | .reserved w k, v, pl => bits (w - 1) 0 ++ enc k v pl","C80: a reserved bit is not written"),
 X("enc","padTo pad (xs.flatMap (fun x => enc e x [])) ++ enc k v pl","xs.flatMap (fun x => enc e x []) ++ enc k v pl","C80: the padding is not written"),
 X("padTo","8 * n - l.length","8 * n","C80: too much padding"),
 X("lenOf","    if b = .count i then xs.length\n","    if b = .count i then xs.length + 1\n","C80: the count is one too large"),
 X("lenOf","    else if b = .size i then (xs.flatMap (fun x => enc e x [])).length / 8","    else if b = .size i then xs.length","C80: the number of elements is written for their size"),
 X("lenOf","if b = .size i then pl.length / 8 else","if b = .size i then pl.length / 8 + 1 else","C80: the size of the payload includes its length field"),
 X("takeBits","if bs.length < n then none","if bs.length ≤ n then none","C80: a packet that ends with its last field is refused"),
 X("takeBits","if bs.length < n then none else","if bs.length + 8 < n then none else","C80: a short packet is accepted, its last field cut"),
 X("allDec","    | none => none\n    | some (x, r) => match allDec d n r with","    | none => some []\n    | some (x, r) => match allDec d n r with","C80: an incomplete last element is ignored, so the octets written differ from those read"),
 X("arrayDec","  | .count i => repeatDec d (env i) bs","  | .count i => repeatDec d (env i - 1) bs","C80: the last element is not read"),
 X("arrayDec","  | .size i => match takeBits (8 * env i) bs with","  | .size i => match takeBits (env i) bs with","C80: a size in octets is taken for one in bits"),
 X("paddedDec","      | some (xs, _) => some (xs, r)","      | some (xs, r') => some (xs, r' ++ r)","C80: the padding is not skipped"),
 X("payloadDec","  | .rest => some (bs, [])","  | .rest => some (bs.drop 8, [])","C80: the first octet of the payload is lost"),
 X("payloadDec","  | .size i => takeBits (8 * env i) bs","  | .size _ => some (bs, [])","C80: octets after the packet are taken for payload"),
 X("dec","    | some (a, r) => if num a = c then dec k env p r else none","    | some (_, r) => dec k env p r","C80: fixed fields are not checked"),
 X("dec","    | some (a, r) => dec k (fun j => if j = i then num a else env j) p r","    | some (a, r) => dec k (fun _ => num a) p r","C80: the last length field read is used for all"),
 X("dec","    | some (a, r) => dec k env a r","    | some (a, _) => dec k env a a","C80: fields after the payload are read from the payload"),
 X("field","  | .uint _ k, j + 1, (_, v) => field k j v","  | .uint _ k, j + 1, (_, v) => field k (j + 1) v","C81: conditions on the second field are not found"),
 X("decAll","      if meets l.body v l.cond then","      if true then","C81: a view of a derived packet ignores the conditions"),
 X("encAll","enc l.body v (encAll ls vs pl)","enc l.body v (encAll ls vs [] ++ pl)","C80: the payload follows the packet outside of its length"),
 XL("Hci","packetsCommand0","⟨\"WriteScanEnable\", [⟨bodyCommand, [(0, 3098)]⟩","⟨\"WriteScanEnable\", [⟨bodyCommand, [(0, 3096)]⟩","C81: two commands have the same op code"),
 XL("Hci","packetsEvent1","⟨\"LeRandComplete\", [⟨bodyEvent, [(0, 14)]⟩, ⟨bodyCommandComplete, [(1, 8216)]⟩","⟨\"LeRandComplete\", [⟨bodyEvent, [(0, 14)]⟩, ⟨bodyCommandComplete, []⟩","C81: an answer is declared for any command"),
 XL("LinkLayer","packetsLinkLayerPacket0","⟨\"Disconnect\", [⟨bodyLinkLayerPacket, [(0, 5)]⟩","⟨\"Disconnect\", [⟨bodyLinkLayerPacket, [(0, 6)]⟩","C81: two link layer packets have the same type"),
 XL("Lmp","packetsLmpPacket0","⟨bodyExtendedPacket, [(0, 26)]⟩","⟨bodyExtendedPacket, [(0, 25)]⟩","C81: IO capability request and response have the same code",tightened=["C81_apart_partial"],note="survived while derives was reflexive; derives now asks for more levels or conditions"),
 XL("Hci","bodyEvent","def bodyEvent : Fmt :=\n  .uint 8 <| .len 0 8 <|","def bodyEvent : Fmt :=\n  .uint 8 <| .reserved 4 <| .len 0 4 <|","C80: the length of an event has four bits, too few for most events"),
 XL("Hci","bodyCommand","def bodyCommand : Fmt :=\n  .uint 16 <| .len 0 8 <| .payload (.size 0)","def bodyCommand : Fmt :=\n  .uint 15 <| .len 0 8 <| .payload (.size 0)","C80: a command is not made of octets"),
]
P=lambda d,o,n,c,**k: M("Port/Model.lean",d,o,n,c,"Port.Props",**k)
PA=lambda d,o,n,c,**k: M("Port/Air.lean",d,o,n,c,"Port.AirProps",**k)
port=[
 P("idc","  | .sco => 3\n  | .event => 4","  | .sco => 4\n  | .event => 3","C82: events are sent with the type of SCO packets"),
 P("Dir.octet","  | .hostToController => 0\n  | .controllerToHost => 1","  | .hostToController => 1\n  | .controllerToHost => 0","C83: the directions are swapped"),
 P("le","UInt8.ofNat (x % 256) :: le n (x / 256)","le n (x / 256) ++ [UInt8.ofNat (x % 256)]","C83: the numbers of the file have the wrong byte order"),
 P("fileHeader","le 2 2 ++ le 2 4","le 2 4 ++ le 2 2","C83: wrong version of the file format"),
 P("recordHeader","++ le 4 length ++ le 4 length","++ le 4 length ++ le 4 0","C83: the original length is not recorded"),
 P("recordHeader","le 4 (time / 1000000) ++","le 4 (time / 1000) ++","C83: milliseconds are recorded as seconds"),
 P("Trace.start","⟨fileHeader 201,","⟨fileHeader 187,","C83: wrong link type"),
 P("Trace.append","recordHeader time (4 + 1 + p.length)","recordHeader time (1 + p.length)","C83: the length of the record does not count the direction"),
 P("Trace.append","some { file := t.file ++ head ++ q, filter := some m', count","some { file := t.file ++ head ++ p, filter := some m', count","C83: the filtered packet is not the one recorded"),
 P("Trace.append","some { file := t.file ++ head ++ q, filter := some m', count","some { file := t.file ++ head ++ q, filter := some m, count","C83: the filter forgets the names it has replaced"),
 P("Trace.append","| none => some { t with file := t.file ++ head ++ p, count","| none => some { t with file := head ++ p, count","C83: each record overwrites the file"),
 P("Dev.put","if s.up && net.alive s.asks then","if s.up || net.alive s.asks then","C82: packets are written to a closed socket"),
 P("Dev.put","++ ([idc k].take (net.room s.writes)) ++ p.take","++ p.take","C82: the type octet is not sent"),
 P("Dev.put","p.take (net.room (s.writes + 1)) }","(p.take (net.room (s.writes + 1))).dropLast }","C82: the last octet is not sent"),
 P("Dev.send","match s.note net .controllerToHost k p with","match s.note net .hostToController k p with","C82/C83: packets to the host are recorded as packets from it"),
 P("Dev.send","| some s' => (s'.put net k p).send net ms","| some s' => s'.send net ms","C82: packets are recorded but not sent"),
 P("Dev.deliver","match s.note net .hostToController k p with","match s.note net .hostToController .command p with","C82/C83: each packet of the host is taken for a command"),
 P("Dev.deliver","        | some s'' => s''.deliver net ctl ms","        | some s'' => some s''","C82: only the first packet of a read is handled"),
 P("Dev.deliver","    if k = .event then none\n","    if k = .iso then none\n","C82: ISO packets end the process, events are handled"),
 P("Dev.close","({ s with up := false } : Dev σ).after","s.after","C82: the socket is not closed"),
 P("Dev.close","some { s' with closes := s'.closes + 1 }","some s'","C82: a closed device is not removed"),
 P("Dev.read","    if c = [] then s.close net ctl\n","    if c = [] then s.read net ctl cs stop\n","C82: the end of the stream is ignored"),
 P("Dev.read","| [], .reset => s.close net ctl","| [], .reset => some s","C82: a reset connection stays open"),
 P("Dev.read","match ({ s with parser := p } : Dev σ).deliver net ctl ev with","match s.deliver net ctl ev with","C82: the state of the parser is lost between reads"),
 P("Dev.step","(if s.up then s.read net ctl reads stop else s.close net ctl)","(s.read net ctl reads stop)","C82: a closed socket is read"),
 P("Dev.step","if s.closes = 0 then some s else some { s with gone := true }","some { s with gone := true }","C82: an open device is removed"),
 P("Dev.step","  if s.gone then some s\n  else match op","  match op","C82: a device that has been removed goes on"),
 P("Dev.new","H4.init true, true","H4.init true, false","C82: the socket is never read"),
 PA("common","(0, 0, 0, 0, 0, 3, 0, 0, lap % 256, lap % 256, uap,","(0, 0, 0, 0, 0, 3, 0, 0, lap % 256, lap % 256, 0,","C85: the reference UAP is missing"),
 PA("common","(UInt8.ofNat type) true true true","(UInt8.ofNat type) true true false","C85: the SEQN bit is not set"),
 PA("common","0x0001 + 0x0008","0x0001","C85: the flags do not say that the payload is decrypted"),
 PA("recordOf","let nap := source / 4294967296 % 65536","let nap := source / 4294967296 % 256","C85: half of the NAP is lost"),
 PA("recordOf","let uap := source / 16777216 % 256","let uap := source / 65536 % 256","C85: the UAP is taken from the LAP"),
 PA("recordOf","(0, lap, 0, 0, 0, uap, nap, classOfDevice, 1","(0, lap, 0, 0, 0, uap, nap, 0, 1","C85: the class of device is missing"),
 PA("recordOf","common lap uap 3","common lap uap 4","C85: link manager packets are said to be DH1 packets"),
 PA("recordOf","    else if type = 52 then match","    else if type = 51 then match","C85: link manager packets are not recorded"),
 PA("recordOf","some (some (serialize dm1 (common lap uap 3, (3, 1, 0, ()), ()) payload))","some (some (serialize dm1 (common lap uap 3, (3, 1, 0, ()), ()) l))","C85: the record contains the link layer header"),
 PA("Capture.start","fileHeader 255","fileHeader 201","C85: wrong link type"),
 PA("Capture.append","recordHeader (clock c.count) l.length ++","recordHeader (clock c.count) (l.length + 1) ++","C85: wrong lengths"),
 PA("Capture.receive","    | some none => c.receive clock ls","    | some none => (c.append clock l).receive clock ls","C85: other packets are recorded"),
 PA("Beacon.new","interval * 1000000, 0⟩","interval * 1000, 0⟩","C86: the interval is taken for microseconds"),
 PA("Beacon.new","[0x0F, 0x09, 103","[0x0E, 0x09, 103","C86: the name has the wrong length"),
 PA("Beacon.new","⟨address, 3, array31 [0x0F","⟨address, 0, array31 [0x0F","C86: connectable advertisements"),
 PA("Beacon.tick","if now - b.last ≥ b.interval then","if now - b.last > b.interval then","C86: too late by one"),
 PA("Beacon.tick","({ b with last := now },","(b,","C86: once its interval has passed a beacon transmits at each tick"),
 PA("Beacon.tick","((11, b.address, 0, ())","((11, 0, b.address, ())","C86: source and destination are swapped"),
 PA("Beacon.step","({ b with address := a }, none)","(b, none)","C86: the address is not changed"),
]
CT="Cfg.PropsFeatures Verif.Cfg.PropsCommands Verif.Cfg.PropsPresets"
cfg=[
 M("Cfg/Checks.lean","Props.faults","p.lmp0 Lmp0.sniffMode != p.lmp0 Lmp0.sniffSubrating","p.lmp0 Lmp0.sniffMode && !p.lmp0 Lmp0.sniffSubrating","C88: sniff subrating without sniff mode is not reported",CT),
 M("Cfg/Checks.lean","Props.faults","p.lmp0 Lmp0.hv2Packets && !p.lmp0 Lmp0.scoLink,","p.lmp0 Lmp0.hv2Packets && !p.lmp0 Lmp0.extendedScoLink,","C88: HV2 packets are checked against extended SCO links",CT),
 M("Cfg/Checks.lean","Props.faults","!p.lmp0 Lmp0.secureSimplePairingController || ","","C88: a missing mandatory feature is not reported",CT),
 M("Cfg/Checks.lean","reserved2","  | 7 => 0xfffffffffffff480\n","  | 7 => 0xffffffffffffffff\n","C88: version 4.1 has no page 2",CT),
 M("Cfg/Checks.lean","Props.faults","  p.lmp0 Lmp0.broadcastEncryption && p.lmp2 Lmp2.coarseClockAdjustment,\n","","C88: excluded pairs are not reported",CT),
 M("Cfg/Conds.lean","Props.need","| .c7 => mandatoryOrExcluded (p.ll Ll.leEncryption && p.ll Ll.lePing)","| .c7 => mandatoryOrExcluded (p.ll Ll.leEncryption || p.ll Ll.lePing)","C89: and is taken for or",CT),
 M("Cfg/Conds.lean","Props.need","| .c8 => mandatoryOrOptional (p.ll Ll.leDataPacketLengthExtension)","| .c8 => mandatoryOrExcluded (p.ll Ll.leDataPacketLengthExtension)","C89: optional is taken for excluded",CT),
 M("Cfg/Conds.lean","Props.need","| .c16 => mandatoryOrExcluded (p.ll Ll.lePeriodicAdvertising)","| .c16 => mandatoryOrExcluded (p.ll Ll.leExtendedAdvertising)","C89: wrong feature",CT),
 M("Cfg/Conds.lean","Props.need","| .c134 => mandatoryOrExcluded (p.lmp0 Lmp0.scoLink || p.lmp0 Lmp0.extendedScoLink)","| .c134 => mandatoryOrExcluded (p.lmp0 Lmp0.scoLink)","C89: half a condition",CT),
 M("Cfg/Rows.lean","rows","(67, .c121, .excluded)","(67, .c121, .optional)","C89: wrong requirement for LE",CT),
 M("Cfg/Rows.lean","rows","  (43, .c214, .excluded),\n","","C89: a command is not checked",CT),
 M("Cfg/Rows.lean","rows","(16, .c133, .excluded)","(17, .c133, .excluded)","C89: wrong command",CT),
 M("Cfg/Model.lean","checkRequirement","    if !br then forLe\n    else if !le then forBr\n","    if !br then forBr\n    else if !le then forLe\n","C89: the columns are swapped",CT),
 M("Cfg/Model.lean","checkRequirement","forLe = .mandatory || forBr = .mandatory then","forLe = .mandatory && forBr = .mandatory then","C89: mandatory only if for both transports",CT),
 M("Cfg/Model.lean","checkRequirement","  else if r = .excluded && supported then false\n","","C89: excluded commands are not reported",CT),
 M("Cfg/Model.lean","Props.checkRow","then [] else [r.1]","then [r.1] else []","C89: the test is inverted",CT),
 M("Cfg/Model.lean","Props.checkCommands","(true, rows.flatMap p.checkRow)","(true, (rows.flatMap p.checkRow).take 1)","C89: the first message ends the check",CT),
 M("Cfg/Model.lean","Props.log","if !p.checkFeatures then [.features] else []","if p.checkFeatures then [.features] else []","C88: the warning is inverted",CT),
 M("Cfg/Model.lean","setFeature","if on then mask ||| bit else","if on then mask ^^^ bit else","C87: a feature that is there is turned off",CT),
 M("Cfg/Model.lean","setFeature","mask &&& (0xffffffffffffffff ^^^ bit)","mask &&& (0xffffffff ^^^ bit)","C87: turning one off clears the upper half",CT),
 M("Cfg/Model.lean","features","optional c.iso Ll.connectedIsochronousStreamCentral","optional c.iso Ll.connectedIsochronousStreamHostSupport","C87: wrong bit",CT),
 M("Cfg/Model.lean","features","(optional c.coded Ll.leCodedPhy (optional c.phy2m Ll.le2mPhy","(optional c.phy2m Ll.leCodedPhy (optional c.coded Ll.le2mPhy","C87: the PHYs are swapped",CT),
 M("Cfg/Model.lean","construct","leFeatures := features c (base p).leFeatures","leFeatures := features c leDefault","C87: the features of the preset are ignored",CT),
 M("Cfg/Model.lean","construct","commands := Hci.configured p c.named, ","","C90: the commands of a feature are not changed",CT),
 M("Cfg/Model.lean","page0Default","Lmp0.sniffSubrating, ","","C88: the default preset is inconsistent",CT),
 M("Cfg/Model.lean","page2Default","[Lmp2.secureConnectionsControllerSupport, Lmp2.ping]","[Lmp2.secureConnectionsControllerSupport]","C88: secure connections without ping",CT),
 M("Cfg/Model.lean","leDefault","Ll.leEncryption, ","","C90: encryption commands without the feature",CT),
 M("Cfg/Model.lean","base",".intel =>\n    { lmpVersion := 0x0d, br := true",".intel =>\n    { lmpVersion := 0x0d, br := false","C90: BR/EDR commands without BR/EDR",CT),
 M("Cfg/Model.lean","base","leFeatures := 0x19beff017fff","leFeatures := 0x19beff016fff","C90: extended advertising commands without the feature",CT),
 M("Cfg/Basic.lean","Props.phys","if p.ll Ll.leCodedPhy then 0x4","if p.ll Ll.leCodedPhy then 0x8","C87: wrong bit of a PHY",CT),
 M("Cfg/Basic.lean","Props.phys","(0x1 ||| if p.ll Ll.le2mPhy then 0x2 else 0)","(if p.ll Ll.le2mPhy then 0x2 else 0)","C87: LE 1M is missing",CT),
 M("Cfg/Basic.lean","Props.command","1 <<< (index % 10)","1 <<< (index % 8)","C89: wrong bit of a command",CT),
 M("Cfg/Basic.lean","mandatoryOrOptionalOrExcluded","else if d then .optional else .excluded","else if d then .excluded else .optional","C89: optional and excluded are swapped",CT),
 M("Hci/Model.lean","configured","apply f.privacy privacyCommands","apply f.iso privacyCommands","C90: the commands of a feature follow another one",CT),
]
LV="Live.Props"
LM="Live/Model.lean"
live=[
 M(LM,"timeout","def timeout (_supervision : Nat) : Int := 3000000000","def timeout (_supervision : Nat) : Int := 2000000000","a connection is ended only after three seconds of silence",LV),
 M(LM,"timeout","def timeout (_supervision : Nat) : Int := 3000000000","def timeout (_supervision : Nat) : Int := 5000000000","a silent connection is gone after three seconds",LV),
 M(LM,"timeout","def timeout (_supervision : Nat) : Int := 3000000000","def timeout (supervision : Nat) : Int := supervision * 10000000","the limit is three seconds for all connections",LV),
 M(LM,"Link.untilNear","l.last + timeout l.supervision / 2 - now","l.last + timeout l.supervision / 3 - now","a ping is sent only after half of the timeout",LV),
 M(LM,"Link.untilNear","l.last + timeout l.supervision / 2 - now","l.last + timeout l.supervision - now","a ping is sent before the connection is ended",LV),
 M(LM,"S.check","if l.untilExpired s.m.clock < 0 then","if l.untilExpired s.m.clock ≤ 0 then","a connection is ended only after more than three seconds",LV),
 M(LM,"S.check","else if l.untilNear s.m.clock < 0 then","else if l.untilNear s.m.clock ≤ 0 then","a ping is sent only after more than half of the timeout",LV),
 M(LM,"S.check","if l.untilExpired s.m.clock < 0 then","if l.untilNear s.m.clock < 0 then","a connection is ended only after three seconds",LV),
 M(LM,"S.check","(s.schedule (toMs (l.untilExpired s.m.clock)) h).map (fun s' => (s', [(s.m.clock, .pinged h)]))","some (s, [(s.m.clock, .pinged h)])","after a ping the connection is checked again",LV),
 M(LM,"S.check","(s.schedule (toMs (l.untilExpired s.m.clock)) h).map (fun s' => (s', [(s.m.clock, .pinged h)]))","(s.schedule (toMs (l.untilExpired s.m.clock)) h).map (fun s' => (s', []))","a ping is sent before the connection is ended",LV),
 M(LM,"S.check","(s.schedule (toMs (l.untilExpired s.m.clock)) h).map","(s.schedule 3000000000 h).map","a silent connection is ended by the next Tick after three seconds",LV),
 M(LM,"S.check","(s.schedule (toMs (l.untilNear s.m.clock)) h).map (fun s' => (s', []))","(s.schedule (toMs (l.untilExpired s.m.clock)) h).map (fun s' => (s', []))","the peer is pinged by the first Tick after half of the timeout",LV),
 M(LM,"S.check","(s.schedule (toMs (l.untilNear s.m.clock)) h).map (fun s' => (s', []))","some (s, [])","a connection that had a packet is checked again",LV),
 M(LM,"S.check","some ({ s with links := s.links.filter (fun l => l.handle ≠ h) }, [(s.m.clock, .ended h)])","some ({ s with links := s.links.filter (fun l => l.handle = h) }, [(s.m.clock, .ended h)])","the connection that is ended is the silent one",LV),
 M(LM,"S.check","some ({ s with links := s.links.filter (fun l => l.handle ≠ h) }, [(s.m.clock, .ended h)])","some (s, [(s.m.clock, .ended h)])","a connection is ended once",LV),
 M(LM,"toMs","d.tdiv 1000000 * 1000000","(d.tdiv 1000000 + 1) * 1000000","checks are not late",LV,note="rounding up delays a check by up to a millisecond, so a Tick may return with a connection that was silent for three seconds"),
 M(LM,"S.step receive","if l.handle = h then { l with last := s.m.clock } else l","if l.handle = h then l else l","a packet restarts the supervision",LV),
 M(LM,"S.step receive","if l.handle = h then { l with last := s.m.clock } else l","{ l with last := s.m.clock }","a packet restarts the supervision of its own connection only",LV),
 M(LM,"S.step connect","else (S.check { s with links := ⟨h, s.m.clock, supervision⟩ :: s.links } h).map","else (some ({ s with links := ⟨h, s.m.clock, supervision⟩ :: s.links }, [])).map","every connection is supervised",LV),
 M(LM,"S.step connect","else (S.check { s with links := ⟨h, s.m.clock, supervision⟩ :: s.links } h).map","else (S.check { s with links := ⟨h, 0, supervision⟩ :: s.links } h).map","the timer of a new connection starts when it is made",LV),
 M(LM,"S.step cancel","if s.m.queue.any (fun t => t.id = id && (s.checks.lookup t.serial).isSome) then none","if false then none","no one cancels a check",LV),
 M(LM,"S.schedule","checks := (s.m.requests.length, h) :: s.checks","checks := (s.m.requests.length, h + 1) :: s.checks","the check is for the connection it was scheduled for",LV),
]
FM="Flow/Model.lean"; FL="Flow.Props"
flow=[
 M(FM,"brHandleAcl","let c' := { c with brTasks := c.brTasks ++ [h] }\n    match c.acl.find?","let c' := c\n    match c.acl.find?","data of a BR/EDR connection is credited",FL),
 M(FM,"brHandleAcl","    | none => some (c', [])\n\n/-- `LeController::HandleAcl`","    | none => some (c, [])\n\n/-- `LeController::HandleAcl`","data for a handle without connection is credited",FL),
 M(FM,"leHandleAcl","{ c with leTasks := c.leTasks ++ [h] }","{ c with leTasks := c.leTasks ++ [h, h] }","data is credited once",FL),
 M(FM,"leHandleAcl","match c.le.find? (fun e => e.1 = h) with\n    | some e => some (c', [.leAir (serialize airAcl ((1, e.2.1, e.2.2, ())","match c.le.find? (fun e => e.1 = h) with\n    | some e => some (c', [.leAir (serialize airAcl ((1, e.2.2, e.2.1, ())","the packet names sender and receiver in this order",FL),
 M(FM,"handleAcl","some (c, [.acl (serialize hciAcl ((h, pb, bc, ()), ()) data), .event (credit h)])","some (c, [.acl (serialize hciAcl ((h, pb, bc, ()), ()) data)])","looped data is credited",FL),
 M(FM,"handleAcl","some (c, [.acl (serialize hciAcl ((h, pb, bc, ()), ()) data), .event (credit h)])","some (c, [.acl (serialize hciAcl ((h, (if pb = 0 then 2 else pb), bc, ()), ()) data), .event (credit h)])","data comes back as it is",FL),
 M(FM,"handleAcl","    else some (c, [.event (credit h)])","    else some (c, [])","data for a handle of no range is credited",FL),
 M(FM,"handleAcl","if c.loopback = 1 then\n      some (c, [.acl","if c.loopback = 2 then\n      some (c, [.acl","the local loopback mode is 1",FL),
 M(FM,"isAclHandle","h ≤ 0x0ff","h ≤ 0x0fe","handles 0 to 0xff are ACL handles",FL),
 M(FM,"isLeHandle","0x200 ≤ h && h ≤ 0x2ff","0x200 ≤ h && h ≤ 0x300","handles 0x200 to 0x2ff are LE handles",FL),
 M(FM,"sendSco","serialize airSco ((2, c.addr, e.2, ()), (), ()) data","serialize airSco ((2, e.2, c.addr, ()), (), ()) data","the packet names sender and receiver in this order",FL),
 M(FM,"handleSco","if c.scoFlow then [.event (credit h)] else []","[.event (credit h)]","synchronous data is credited only if the host has asked for it",FL),
 M(FM,"handleSco","((h, status, data, ()), ()) []) :: if","((h, 0, data, ()), ()) []) :: if","the status comes back",FL),
 M(FM,"handleSco","else (c, sendSco c h (octetsOf data))","else (c, sendSco c h (octetsOf data) ++ sendSco c h (octetsOf data))","data arrives once",FL),
 M(FM,"executed","op == 0x1801 || op == 0x1802","op == 0x1801","Write Loopback Mode ends the loopback",FL),
 M(FM,"executed","op == 0x1801 || op == 0x1802","op == 0x1801 || op == 0x1802 || op == 0x1803","other commands come back",FL),
 M(FM,"execute","({ c with loopback := 0, scoFlow","({ c with scoFlow","Reset ends the loopback",FL),
 M(FM,"execute","| m :: _ => ({ c with loopback := m }, [])","| _ :: _ => ({ c with loopback := 1 }, [])","Write Loopback Mode sets the mode",FL),
 M(FM,"execute","({ c with scoFlow := m = 1 }, [])","({ c with scoFlow := m = 1, loopback := m }, [])","only Reset and Write Loopback Mode change the mode",FL,note="0x0c2f is not executed in the loopback mode, so only C94_voice_violated may notice"),
 M(FM,"handleCommand","if c.loopback = 1 ∧ executed op = false then","if c.loopback = 1 ∧ executed op = true then","commands that are not executed come back",FL),
 M(FM,"arriving","if pb = 0 then 2 else pb","if pb = 0 then 2 else if pb = 1 then 2 else pb","a continuing fragment arrives as one",FL),
 M(FM,"arriving","if pb = 0 then 2 else pb","pb","a first fragment arrives as flushable",FL),
 M(FM,"brReceive","if dst ≠ 0 ∧ dst ≠ c.addr then some []","if dst ≠ c.addr ∧ src ≠ c.addr then some []","a packet for another device is not handed to the host",FL),
 M(FM,"brReceive","match c.acl.find? (fun e => e.2 = src) with","match c.acl.find? (fun e => e.1 = src) with","data arrives on the handle of the connection with the sender",FL),
 M(FM,"brReceive","serialize hciSco ((e.1, 0, values data, ()), ()) []","serialize hciSco ((e.1, 1, values data, ()), ()) []","received synchronous data is marked as good",FL),
 M(FM,"leReceive","match c.le.find? (fun e => e.2 = (dst, src)) with","match c.le.find? (fun e => e.2.1 = dst) with","LE data arrives on the connection with the sender",FL),
 M(FM,"leReceive","match c.le.find? (fun e => e.2 = (dst, src)) with","match c.le.find? (fun e => e.2 = (src, dst)) with","LE data arrives on the connection with the sender",FL),
 M(FM,"step tick","some ({ c with brTasks := [], leTasks := [] }, (c.brTasks","some ({ c with leTasks := [] }, (c.brTasks","a report is given once",FL),
 M(FM,"step tick","(c.brTasks ++ c.leTasks).map (fun h => .event (credit h))","c.brTasks.map (fun h => .event (credit h))","LE data is credited",FL),
 M(FM,"credit","([(h, 1, ())], ())","([(h, 2, ())], ())","one packet is reported",FL),
 M(FM,"credit","([(h, 1, ())], ())","([(h, 1, ()), (h, 1, ())], ())","one packet is reported",FL),
]
ALL=dict(flow=flow,live=live,cfg=cfg,port=port,pdl=pdl,reg=reg,apcf=apcf,hci=hci,link=link,br=br,sub=sub,cs=cs,lmp=lmp,ec=ec,ll=ll,mask=mask,test=test,task=task,le2=le2,iso=iso,le=le,h4=h4,addr=addr,conn=conn,sco=sco,asy=asy,phy=phy,pcap=pcap,sock=sock,hec=hec)
for n,l in ALL.items():
    json.dump(l,open(f"/verif/seeded/{n}.json","w"),indent=1,ensure_ascii=False)
