#!/usr/bin/env python3
"""Translate the packet description files of /repo to lean/Verif/Pdl/Layouts*.lean."""
import os, sys
sys.path.insert(0, os.path.dirname(os.path.abspath(__file__)))
from pdl import FILES, load
root = os.path.dirname(os.path.dirname(os.path.abspath(__file__)))
lists = []
for ns, path in FILES:
    d = load(path)
    by = {x[0]: x for x in d['decls']}
    out = []
    def width(ty):
        if ty.isdigit(): return int(ty)
        if ty in d['enums']: return d['enums'][ty][0]
        if ty in d['customs']: return d['customs'][ty]
        return None
    def flat(fs):
        r = []
        for f in fs:
            if f[0] == 'group': r += flat(d['groups'][f[1]])
            else: r.append(f)
        return r
    def body(fs):
        fs = flat(fs); ids = {}; r = []
        for j, f in enumerate(fs):
            if f[0] == 'reserved': r.append(f'.reserved {f[1]}')
            elif f[0] == 'fixed': r.append(f'.fixed {f[2]} {f[1]}')
            elif f[0] in ('size', 'count'):
                ids[f[1]] = (f[0], len(ids)); r.append(f'.len {ids[f[1]][1]} {f[2]}')
            elif f[0] == 'field':
                w = width(f[2])
                r.append(f'.uint {w}' if w is not None else f'.group struct{f[2]}')
            elif f[0] == 'array':
                w = width(f[2]); e = f'(.uint {w} .done)' if w is not None else f'struct{f[2]}'
                if f[3] is not None: b = f'(.const {f[3]})'
                elif f[1] in ids: b = '(.%s %d)' % ids[f[1]]
                else: b = '.rest'
                pad = fs[j+1][1] if j + 1 < len(fs) and fs[j+1][0] == 'padding' else 0
                r.append(f'.array {e} {b} {pad}')
            elif f[0] == 'payload':
                k = [x for x in ('_payload_', '_body_') if x in ids]
                r.append('.payload ' + ('(.%s %d)' % ids[k[0]] if k else '.rest'))
            elif f[0] == 'padding': pass
            else: raise Exception(f)
        r.append('.done')
        lines = []; cur = ' '
        for x in r:
            piece = ' ' + x + (' <|' if x != '.done' else '')
            if len(cur) + len(piece) > 118: lines.append(cur); cur = '  ' + piece
            else: cur += piece
        lines.append(cur)
        return '\n'.join(lines)
    for n, (fs, line) in d['structs'].items():
        out.append(f'/-- `{n}`, {path} {line}. -/\ndef struct{n} : Fmt :=\n{body(fs)}')
    for n, par, cons, fs, line in d['decls']:
        out.append(f'/-- `{n}`, {path} {line}. -/\ndef body{n} : Fmt :=\n{body(fs)}')
    def chain(n):
        x = by[n]; ls = [(n, [])]
        while x[1] is not None:
            pf = [f for f in flat(by[x[1]][3]) if f[0] == 'field' and width(f[2]) is not None]
            cs = []
            for f, v in x[2]:
                j = [g[1] for g in pf].index(f)
                cs.append((j, v if v.isdigit() else d['enums'][pf[j][2]][1][v]))
            ls.insert(0, (x[1], cs)); x = by[x[1]]
        return ls
    roots = [x[0] for x in d['decls'] if x[1] is None]
    for r in roots:
        l = []
        for x in d['decls']:
            c = chain(x[0])
            if c[0][0] != r: continue
            lv = ', '.join('⟨body%s, [%s]⟩' % (n, ', '.join('(%s, %s)' % q for q in cs)) for n, cs in c)
            l.append(f'  ⟨"{x[0]}", [{lv}]⟩')
        # long lists are elaborated in pieces
        pieces = [l[i:i+100] for i in range(0, len(l), 100)]
        for i, pc in enumerate(pieces):
            out.append(f'/-- {r} and the packets derived from it, in the order of {path} (part {i+1}). -/\n'
                       f'def packets{r}{i} : List Packet := [\n' + ',\n'.join(pc) + ']')
        out.append(f'/-- {r} and the packets derived from it, in the order of {path}. -/\n'
                   f'def packets{r} : List Packet := ' + ' ++ '.join(f'packets{r}{i}' for i in range(len(pieces))))
        lists.append(f'{ns}.packets{r}')
    with open(f'{root}/lean/Verif/Pdl/Layouts{ns}.lean', 'w') as f:
        f.write('import Verif.Pdl.Model\n/-!\n# The packets of ' + path + '\n\nWritten by tools/gen_pdl.py.\n-/\nnamespace Verif.Pdl.' + ns +
                '\n\n' + '\n\n'.join(out) + f'\n\nend Verif.Pdl.{ns}\n')
print(lists)

# the test vectors of packets/hci_packets.pdl
d = load('packets/hci_packets.pdl')
par = {x[0]: x[1] for x in d['decls']}
def origin(n):
    while par[n]: n = par[n]
    return n
rows = []
for name, vs in d['tests']:
    # one test names a packet that has been renamed
    if name == 'LeExtendedCreateConnection': name += 'V1'
    for v in vs:
        rows.append(f'  (Hci.packets{origin(name)}, "{name}", [{", ".join(map(str, v))}])')
with open(f'{root}/lean/Verif/Pdl/Tests.lean', 'w') as f:
    f.write('import Verif.Pdl.Spec\nimport Verif.Pdl.Declared\n/-!\n# The examples of packets/hci_packets.pdl\n\nWritten by tools/gen_pdl.py.\n-/\nnamespace Verif.Pdl\n\n'
            '/-- The `test` declarations of packets/hci_packets.pdl: the packet and its octets. -/\n'
            'def vectors : List (List Packet × String × List Nat) := [\n' + ',\n'.join(rows) + ']\n\n'
            '/-- The octets are accepted, what is read from them fits, and they are what is written with it. -/\n'
            'def roundTrip (p : Packet) (l : List Nat) : Bool := match parse p l with\n  | none => false\n  | some (v, pl) => p.legal v pl && serialize p v pl == l\n\n'
            'theorem vectors_ok : vectors.all (fun t => roundTrip (named t.1 t.2.1) t.2.2) = true := by decide +kernel\n\nend Verif.Pdl\n')
print(len(rows))
