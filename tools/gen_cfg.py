#!/usr/bin/env python3
"""Writes lean/Verif/Cfg/Bits.lean, Conds.lean and Rows.lean from /repo/model/controller/controller_properties.cc
and /repo/packets/hci_packets.pdl."""
import re
src=open('/repo/model/controller/controller_properties.cc').read()
pdl=open('/repo/packets/hci_packets.pdl').read()
out='/verif/lean/Verif/Cfg/'

def camel(s):
    w=[x for x in s.split('_') if x]
    r=w[0].lower()+''.join(x.capitalize() for x in w[1:])
    return r if r[0].isalpha() else '_'+r

def enum(name):
    m=re.search(r'enum '+name+r'\s*:\s*\d+ \{(.*?)\n\}',pdl,re.S)
    body=re.sub(r'//.*','',m.group(1))
    return [(a,int(b,0)) for a,b in re.findall(r'(\w+)\s*=\s*(\w+)',body)]

def line(off): return src.count('\n',0,off)+1

ns={'LLFeaturesBits':'Ll','LMPFeaturesPage0Bits':'Lmp0','LMPFeaturesPage2Bits':'Lmp2'}
cites={'LLFeaturesBits':'3182-3242','LMPFeaturesPage0Bits':'2770-2841','LMPFeaturesPage2Bits':'2851-2866'}
with open(out+'Bits.lean','w') as f:
    f.write('/-! # The bits of the feature masks\n\nGenerated by tools/gen_cfg.py from packets/hci_packets.pdl 2770-2866 and 3182-3242. -/\n')
    f.write('namespace Verif.Cfg\n')
    for e,n in ns.items():
        f.write(f'\n/-! ## `{e}`, packets/hci_packets.pdl {cites[e]} -/\n\n')
        for a,v in enum(e):
            f.write(f'/-- `{e}::{a}`, packets/hci_packets.pdl {cites[e]}. -/\ndef {n}.{camel(a)} : Nat := 0x{v:x}\n')
    f.write('\nend Verif.Cfg\n')

ops=dict(enum('OpCodeIndex'))
# conditions
body_start=src.index('bool ControllerProperties::CheckSupportedCommands')
conds=[]
for m in re.finditer(r'\n  auto (c\d+)\s*=\s*(.*?);\n',src[body_start:],re.S):
    conds.append((m.group(1),m.group(2),line(body_start+m.start(1)),line(body_start+m.end(2))))
def expr(t):
    t=re.sub(r'\s+',' ',t)
    for e,n in ns.items():
        fn={'Ll':'ll','Lmp0':'lmp0','Lmp2':'lmp2'}[n]
        t=re.sub(r'Supports(?:LL|LMP)Feature\( ?'+e+r'::(\w+)\)',lambda m:f'p.{fn} {n}.{camel(m.group(1))}',t)
    t=re.sub(r'SupportsCommand\( ?OpCodeIndex::(\w+)\)',lambda m:f'p.command {ops[m.group(1)]}',t)
    t=t.replace('(cs_local_supported_capabilities.roles_supported & static_cast<uint8_t>(CsRolesSupported::INITIATOR))','(p.roles &&& 1 != 0)')
    assert 'Supports' not in t and '::' not in t,t
    t=t.strip()
    m=re.match(r'(mandatory_or_optional_or_excluded|mandatory_or_excluded|mandatory_or_optional|optional_or_excluded)\((.*)\)$',t)
    if not m:
        return {'mandatory':'.mandatory','optional':'.optional','excluded':'.excluded'}[t]
    fn=camel(m.group(1)); arg=m.group(2).strip()
    if fn=='mandatoryOrOptionalOrExcluded':
        d=0
        for i,ch in enumerate(arg):
            d+=(ch=='(')-(ch==')')
            if ch==',' and d==0: return f'{fn} ({arg[:i].strip()}) ({arg[i+1:].strip()})'
        raise Exception(arg)
    return f'{fn} ({arg})'
rows=[]
for m in re.finditer(r'\n  check_command_\((\w+), (\w+), (\w+)\);',src):
    rows.append((m.group(1),m.group(2),m.group(3),line(m.start(1))))
used={x for r in rows for x in r[1:3]}
assert used-{'mandatory','optional','excluded'}<={c[0] for c in conds}, used
with open(out+'Conds.lean','w') as f:
    f.write('import Verif.Cfg.Basic\n/-! # The requirements C1 to C221\n\nGenerated by tools/gen_cfg.py from controller_properties.cc 823-1320. -/\nnamespace Verif.Cfg\n\n')
    f.write('/-- The names of the requirements in `CheckSupportedCommands`. -/\ninductive Cond\n  | mandatory\n  | optional\n  | excluded\n')
    for c in conds: f.write(f'  | {c[0]}\n')
    f.write('  deriving DecidableEq, Repr\n\n')
    f.write('/-- The local variables `c1` to `c221`, controller_properties.cc 823-1320; the lines are given at each. -/\ndef Props.need (p : Props) : Cond → Requirement\n  | .mandatory => .mandatory\n  | .optional => .optional\n  | .excluded => .excluded\n')
    for c,e,a,b in conds:
        f.write(f'  -- {a}-{b}\n  | .{c} => {expr(e)}\n')
    f.write('\nend Verif.Cfg\n')
with open(out+'Rows.lean','w') as f:
    f.write('import Verif.Cfg.Conds\n/-! # The commands that are checked\n\nGenerated by tools/gen_cfg.py from controller_properties.cc 1332-1692. -/\nnamespace Verif.Cfg\n\n')
    f.write(f'/-- The uses of `check_command_`, controller_properties.cc {rows[0][3]}-{rows[-1][3]}: the value of `OpCodeIndex`, the\nrequirement for BR/EDR and the requirement for LE. -/\ndef rows : List (Nat × Cond × Cond) := [\n')
    f.write(',\n'.join(f'  ({ops[a]}, .{b}, .{c})' for a,b,c,_ in rows))
    f.write(']\n\nend Verif.Cfg\n')
# the features
fs=src.index('bool ControllerProperties::CheckSupportedFeatures'); fe=src.index('bool ControllerProperties::CheckSupportedCommands')
def bexpr(t):
    t=re.sub(r'\s+',' ',t)
    for e,n in ns.items():
        fn={'Ll':'ll','Lmp0':'lmp0','Lmp2':'lmp2'}[n]
        t=re.sub(r'(!?)SupportsLMPFeature\( ?'+e+r'::(\w+)\)',lambda m:f'{m.group(1)}p.{fn} {n}.{camel(m.group(2))}',t)
    assert 'Supports' not in t,t
    return t
chk=[]
for m in re.finditer(r'\n  if \((.*?)\) \{\n\s+INFO',src[fs:fe],re.S):
    c=m.group(1)
    if 'reserved_bits' in c: continue
    chk.append((bexpr(c),line(fs+m.start(1)),line(fs+m.end(1))))
vers=re.findall(r'case bluetooth::hci::LmpVersion::(\w+):\n\s+lmp_page_0_reserved_bits = UINT64_C\((\w+)\);\n\s+lmp_page_2_reserved_bits = UINT64_C\((\w+)\)',src[fs:fe])
dflt=re.search(r'default:\n\s+lmp_page_0_reserved_bits = UINT64_C\((\w+)\);\n\s+lmp_page_2_reserved_bits = UINT64_C\((\w+)\)',src[fs:fe])
vnum=dict(enum('LmpVersion'))
with open(out+'Checks.lean','w') as f:
    f.write('import Verif.Cfg.Basic\n/-! # The conditions of `CheckSupportedFeatures`\n\nGenerated by tools/gen_cfg.py from controller_properties.cc 475-748. -/\nnamespace Verif.Cfg\n\n')
    f.write('/-- `lmp_page_0_reserved_bits`, controller_properties.cc 481-537. -/\ndef reserved0 : Nat → Nat\n')
    for v,a,b in vers: f.write(f'  | {vnum[v]} => {a}\n')
    f.write(f'  | _ => {dflt.group(1)}\n\n')
    f.write('/-- `lmp_page_2_reserved_bits`, controller_properties.cc 481-537. -/\ndef reserved2 : Nat → Nat\n')
    for v,a,b in vers: f.write(f'  | {vnum[v]} => {b}\n')
    f.write(f'  | _ => {dflt.group(2)}\n\n')
    f.write('/-- The conditions on which `CheckSupportedFeatures` returns `false`, controller_properties.cc 539-745, in their\norder. -/\ndef Props.faults (p : Props) : List Bool := [\n')
    f.write('  -- 539\n  reserved0 p.lmpVersion &&& p.page0 != 0,\n  -- 546\n  reserved2 p.lmpVersion &&& p.page2 != 0,\n')
    f.write(',\n'.join(f'  -- {a}-{b}\n  {c}' for c,a,b in chk))
    f.write(']\n\nend Verif.Cfg\n')
if __name__=='__main__':
    import sys
    if '--spec' in sys.argv:
        for side in (1,2):
            g={}
            for r in rows: g.setdefault(r[side],[]).append(ops[r[0]])
            print('-- BR/EDR' if side==1 else '-- LE')
            for k,v in g.items(): print(f'  (.{k}, {v}),')
    if '--conds' in sys.argv:
        for c in conds: print(c[0],expr(c[1]))
        print(len(conds),len(rows), sorted({c[0] for c in conds}-used))
