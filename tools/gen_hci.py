#!/usr/bin/env python3
"""Writes lean/Verif/Hci/Table.lean: the command tables of the controller, read from the sources.

For each handler of DualModeController the statements that answer the host or stop are kept, in their
order and with their branches; what the conditions test is not."""
import re
R='/repo/'
src=open(R+'model/controller/dual_mode_controller.cc').read()
props=open(R+'model/controller/controller_properties.cc').read()
pdl=open(R+'packets/hci_packets.pdl').read()
def nocomment(s): return re.sub(r'//[^\n]*',lambda m:' '*len(m.group()),s)
csrc=nocomment(src); cprops=nocomment(props); cpdl=nocomment(pdl)
def enum(name):
    b=re.search(r'enum %s : \d+ \{(.*?)\n\}'%name,cpdl,re.S).group(1)
    return {a:int(v,0) for a,v in re.findall(r'(\w+) = (0x[0-9a-fA-F]+|\d+)',b)}
OP=enum('OpCode'); IX=enum('OpCodeIndex'); EV=enum('EventCode')
PK={}
for m in re.finditer(r'packet (\w+)\s*:\s*(\w+)\s*(?:\(([^)]*)\))?',cpdl):
    PK[m.group(1)]=(m.group(2),dict(x.split(' = ') for x in [y.strip() for y in (m.group(3) or '').split(',')] if x))
def chain(n):
    c={}
    while n in PK:
        p,k=PK[n]
        for a,b in k.items(): c.setdefault(a.strip(),b.strip())
        n=p
    return n,c
def cmd_op(n):
    r,c=chain(n); assert r=='Command',(n,r); return c['op_code']
def reply(n):
    r,c=chain(n)
    a=n
    while a in PK and a not in('CommandComplete','CommandStatus'): a=PK[a][0]
    if a=='CommandComplete': return 'complete',c['command_op_code']
    if a=='CommandStatus': return 'status',c['command_op_code']
    return 'event',c.get('event_code')
funcs={}
for m in re.finditer(r'^void DualModeController::(\w+)\(CommandView command\) (?:const )?\{',csrc,re.M):
    i=m.end(); d=1
    while d: d+=(csrc[i]=='{')-(csrc[i]=='}'); i+=1
    funcs[m.group(1)]=(csrc[:m.start()].count('\n')+1,csrc[:i].count('\n')+1,csrc[m.end():i-1])
def match(s,i,o,c):
    assert s[i]==o; d=0; q=None
    while True:
        ch=s[i]
        if q:
            if ch=='\\': i+=1
            elif ch==q: q=None
        elif ch in '"\'': q=ch
        elif ch==o: d+=1
        elif ch==c:
            d-=1
            if d==0: return i+1
        i+=1
def expr(e,views):
    e=e.strip()
    out=[]
    if re.match(r'(DEBUG|INFO|WARNING|ERROR)\(',e): return []
    m=re.search(r'(?:auto )?(\w+) =\s*bluetooth::hci::(\w+)View::Create\((\w+)\)',e)
    if m: views[m.group(1)]=m.group(2); return []
    m=re.match(r'CHECK_PACKET_VIEW\((\w+)\)',e)
    if m: return [f'.check {OP[cmd_op(views[m.group(1)])]:#06x}']
    if re.match(r'(FATAL|ASSERT)\(',e): return ['.fatal'] if e.startswith('FATAL') else ['.ite [.fatal] []']
    m=re.match(r'SendCommandCompleteUnknownOpCodeEvent\(OpCode::(\w+)\)',e)
    if m: return [f'.complete {OP[m.group(1)]:#06x}']
    if re.search(r'ForwardToLl\(command\)',e): return ['.toLl']
    if re.search(r'bredr_controller_\.ForwardToLm\(command\)',e): return ['.toLm']
    if e.startswith('invalid_packet_handler_('): return ['.invalid']
    if 'ScheduleTask' in e: return ['.later']
    m=re.match(r'send_event_\(\s*bluetooth::hci::(\w+)Builder::Create\((.*)\)\)$',e,re.S)
    if m:
        n=m.group(1)
        if n=='CommandComplete':
            o=re.search(r'OpCode::(\w+)',m.group(2)).group(1); return [f'.complete {OP[o]:#06x}']
        if n=='Event': return ['.event 0xff']
        k,v=reply(n)
        if k=='event': return [f'.event {EV[v]:#04x}']
        return [f'.{k} {OP[v]:#06x}']
    assert 'send_event_' not in e and 'FATAL' not in e and 'ASSERT' not in e,e
    return []
def block(s,views):
    out=[]; i=0
    while True:
        while i<len(s) and s[i].isspace(): i+=1
        if i>=len(s): return out
        st,i=stmt(s,i,views); out+=st
def stmt(s,i,views):
    while s[i].isspace(): i+=1
    if s[i]=='{':
        j=match(s,i,'{','}'); return block(s[i+1:j-1],views),j
    m=re.compile(r'if \(').match(s,i)
    if m:
        j=match(s,m.end()-1,'(',')')
        a,j=stmt(s,j,views)
        k=j
        while k<len(s) and s[k].isspace(): k+=1
        b=[]
        if s[k:k+4]=='else': b,j=stmt(s,k+4,views)
        return ([f".ite [{', '.join(a)}] [{', '.join(b)}]"] if a or b else []),j
    m=re.compile(r'(for|while) \(').match(s,i)
    if m:
        j=match(s,m.end()-1,'(',')'); a,j=stmt(s,j,views)
        return ([f".loop [{', '.join(a)}]"] if a else []),j
    m=re.compile(r'switch \(').match(s,i)
    if m:
        j=match(s,m.end()-1,'(',')')
        while s[j]!='{': j+=1
        e=match(s,j,'{','}'); b=s[j+1:e-1]
        # split the cases at depth 0
        parts=[];d=0;k=0;cur=None
        pos=[mm for mm in re.finditer(r'\b(case [\w:]+|default)\s*:(?!:)',b) if b[:mm.start()].count('{')==b[:mm.start()].count('}')]
        pos+= [None]
        cases=[]
        for x,y in zip(pos,pos[1:]):
            body=b[x.end(): y.start() if y else len(b)]
            cases.append(body)
        alts=[]; hasdef='default' in [p.group(1) for p in pos if p]
        for n,body in enumerate(cases):
            if not body.strip(): continue   # falls through to the next label
            v=dict(views)
            assert re.search(r'break;\s*\}?\s*$',body) or n==len(cases)-1,body
            body2=re.sub(r'\bbreak;\s*(\}?)\s*$',r'\1',body)
            alts.append(block(body2,v))
        if not hasdef: alts.append([])
        if all(a==[] for a in alts): return [],e
        t=f"[{', '.join(alts[-1])}]"
        for a in reversed(alts[:-1]): t=f"[.ite [{', '.join(a)}] {t}]"
        return [t[1:-1]],e
    m=re.compile(r'return\b').match(s,i)
    if m:
        j=s.index(';',i); e=s[m.end():j]
        return expr(e,views)+['.ret'],j+1
    m=re.compile(r'CHECK_PACKET_VIEW\(\w+\);').match(s,i)
    # expression statement
    d=0;j=i;q=None
    while True:
        ch=s[j]
        if q:
            if ch=='\\': j+=1
            elif ch==q: q=None
        elif ch=='"': q=ch
        elif ch in '({[': d+=1
        elif ch in ')}]': d-=1
        elif ch==';' and d==0: break
        j+=1
    return expr(s[i:j],views),j+1
HAND={'CsrVendorCommand':'[.csr]'}
hs=re.search(r'GetHciCommandHandlers\(\) \{.*?\n\}\n',csrc,re.S).group()
H=re.findall(r'\{OpCode::(\w+),\s*&DualModeController::(\w+)\}',hs)
ix=re.search(r'GetOpCodeToIndex\(\) \{.*?\n\}\n',csrc,re.S).group()
I=re.findall(r'\{OpCode::(\w+),\s*OpCodeIndex::(\w+)\}',ix)
L=[]
w=L.append
w('''/-!
# The command tables of the controller

Written by `tools/gen_hci.py` from the sources; do not edit.
-/
namespace Verif.Hci

/-- A statement of a command handler (model/controller/dual_mode_controller.cc 319-3562). The conditions are
not kept; calls of the BR/EDR and LE controllers that do not answer the host are left out.
* `check op`: `XView::Create(command)` and `CHECK_PACKET_VIEW`; `op` is the opcode of `X`, or of the command
  `X` is a part of (packets/hci_packets.pdl);
* `complete op`, `status op`: a Command Complete or Command Status event with this opcode;
* `event code`: another event;
* `later`: an event or packet sent by a task;
* `toLm`, `toLl`: the command goes to the link manager or the link layer in rust/src;
* `invalid`: `invalid_packet_handler_`;
* `fatal`: `FATAL`, or a failed `ASSERT`;
* `csr`: `CsrVendorCommand` (3126-3223), see `Verif.Hci.csr`. -/
inductive Stmt
  | check (op : Nat)
  | complete (op : Nat)
  | status (op : Nat)
  | event (code : Nat)
  | later
  | toLm
  | toLl
  | invalid
  | fatal
  | csr
  | ite (a b : List Stmt)
  | loop (a : List Stmt)
  | ret

/-- `GetHciCommandHandlers`, dual_mode_controller.cc 4016-4545, with the bodies of the handlers. -/
def handlers : List (Nat × List Stmt) := [''')
rows=[]
for op,f in H:
    a,b,body=funcs[f]
    sk=HAND.get(f) or '['+', '.join(block(body,{}))+']'
    rows.append((OP[op],f'  -- {op}: {f}, {a}-{b}\n  ({OP[op]:#06x}, {sk})'))
ops=[r[0] for r in rows]
assert len(set(ops))==len(ops)
w(',\n'.join(r[1] for r in rows)+']')
w('''
/-- `GetOpCodeToIndex`, dual_mode_controller.cc 3568-4014, with the values of packets/hci_packets.pdl 50-429
and 432-765. -/
def indices : List (Nat × Nat) := [''')
assert len(set(a for a,_ in I))==len(I)
def chunk(l,n): return [l[i:i+n] for i in range(0,len(l),n)]
w(',\n'.join('  '+', '.join(f'({OP[a]:#06x}, {IX[b]})' for a,b in c) for c in chunk(I,8))+']')
for a,b in I:
    if a!=b: print('index name differs',a,b)
sc=re.search(r'SupportedCommands\(\) \{.*?\n\}\n',cprops,re.S).group()
S=re.findall(r'OpCodeIndex::(\w+)',sc)
w('''
/-- The list in `SupportedCommands`, controller_properties.cc 132-473. -/
def defaultCommands : List Nat := [''')
w(',\n'.join('  '+', '.join(str(IX[a]) for a in c) for c in chunk(S,16))+']')
names={'le_extended_advertising_commands_':'extendedAdvertising','le_periodic_advertising_commands_':'periodicAdvertising','ll_privacy_commands_':'privacy','connected_isochronous_stream_commands_':'isochronous','connection_subrating_commands_':'subrating','channel_sounding_commands_':'sounding','le_power_control_request_commands_':'powerControl'}
for n,l in names.items():
    m=re.search(r'%s = \{(.*?)\};'%n,cprops,re.S)
    a=cprops[:m.start()].count('\n')+1; b=cprops[:m.end()].count('\n')+1
    x=re.findall(r'OpCodeIndex::(\w+)',m.group(1))
    w(f'\n/-- `{n}`, controller_properties.cc {a}-{b}. -/\ndef {l}Commands : List Nat := ['+', '.join(str(IX[y]) for y in x)+']')
for pn,l in [('LAIRD_BL654','laird'),('CSR_RCK_PTS_DONGLE','csrDongle'),('INTEL_BE200','intel')]:
    m=re.search(r'case ControllerPreset::%s:.*?supported_commands = std::array<uint8_t, 64>\{(.*?)\};'%pn,cprops,re.S)
    a=cprops[:m.start(1)].count('\n')+1; b=cprops[:m.end()].count('\n')+1
    x=re.findall(r'0x[0-9a-f]+',m.group(1)); assert len(x)==64
    w(f'\n/-- `supported_commands` of `ControllerPreset::{pn}`, controller_properties.cc {a}-{b}. -/\ndef {l}Bytes : List Nat := [\n'+',\n'.join('  '+', '.join(c) for c in chunk(x,16))+']')
# link layer and link manager
snake=lambda s: re.sub(r'(?<=[a-z0-9])([A-Z])',r'_\1',s).upper()
ll=open(R+'rust/src/llcp/manager.rs').read()
b=re.search(r'pub fn ingest_hci.*?Ok\(\(\)\)',ll,re.S).group()
x=re.findall(r'Ok\((\w+)\(packet\)\)',b)
w('\n/-- The commands the link layer takes, rust/src/llcp/manager.rs 88-108; any other makes `ingest_hci` fail. -/\ndef llCommands : List Nat := ['+', '.join(f'{OP[cmd_op(y)]:#06x}' for y in x)+']')
lm=open(R+'rust/src/lmp/manager.rs').read()
b=re.search(r'fn send_command_complete_event.*?_ => return',lm,re.S).group()
x=re.findall(r'Ok\((\w+)\(\w+\)\)',b)
w('\n/-- The commands the link manager can answer, rust/src/lmp/manager.rs 132-238; any other makes it fail. -/\ndef lmCommands : List Nat := ['+', '.join(f'{OP[cmd_op(y)]:#06x}' for y in x)+']')
pk=open(R+'rust/src/packets.rs').read()
b=re.search(r'fn command_remote_device_address.*',pk,re.S).group()
x=re.findall(r'Ok\((\w+)\(packet\)\)',b)
w('\n/-- The commands for which the link manager can find a link, rust/src/packets.rs 61-91. -/\ndef lmLinkCommands : List Nat := ['+', '.join(f'{OP[cmd_op(y)]:#06x}' for y in x)+']')
w('\nend Verif.Hci')
open('/verif/lean/Verif/Hci/Table.lean','w').write('\n'.join(L)+'\n')
if __name__=='__main__':
    sup=set(S); imp=set(a for a,_ in H); 
    inv={}
    for a,b in I: inv[b]=a
    print('supported, not implemented:',[s for s in S if inv.get(s) not in imp])
    print('index not mapped', [s for s in IX if s not in inv])
    dup=[s for s in S if S.count(s)>1]; print('dup',dup)
    for op,r in rows:
        chk=re.findall(r'\.(?:check|complete|status) (0x\w+)',r)
        if any(int(c,16)!=op for c in chk): print('MISMATCH',r)
