"""A parser for the packet description files of /repo (the subset of the language they use)."""
import re
FILES = [('Hci', 'packets/hci_packets.pdl'), ('LinkLayer', 'packets/link_layer_packets.pdl'),
         ('Baseband', 'packets/bredr_bb_packets.pdl'), ('Lmp', 'rust/lmp_packets.pdl'), ('Llcp', 'rust/llcp_packets.pdl')]

def load(path):
    src = open('/repo/' + path).read()
    src = re.sub(r'/\*.*?\*/', lambda m: re.sub(r'[^\n]', ' ', m.group(0)), src, flags=re.S)
    src = re.sub(r'//[^\n]*', '', src)
    pos = 0
    decls, enums, structs, groups, customs, tests = [], {}, {}, {}, {}, []
    tok = re.compile(r'\s*("(?:[^"\\]|\\.)*"|\.\.|[A-Za-z_]\w*|0x[0-9A-Fa-f]+|\d+|[^\s\w])')
    toks = []
    while True:
        m = tok.match(src, pos)
        if not m: break
        toks.append((m.group(1), src.count('\n', 0, m.start(1)) + 1)); pos = m.end()
    assert src[pos:].strip() == '', src[pos:pos+50]
    i = 0
    def peek(): return toks[i][0] if i < len(toks) else None
    def nxt():
        nonlocal i
        t = toks[i][0]; i += 1; return t
    def expect(x):
        t = nxt(); assert t == x, (t, x, toks[i-1][1])
    def num(t): return int(t, 0)
    def fields():
        expect('{'); out = []
        while peek() != '}':
            t = nxt()
            if t == '_reserved_': expect(':'); out.append(('reserved', num(nxt())))
            elif t == '_fixed_':
                expect('='); v = nxt(); expect(':'); w = nxt()
                out.append(('fixed', v, w))
            elif t in ('_size_', '_count_'):
                expect('('); x = nxt(); expect(')'); expect(':'); out.append((t.strip('_'), x, num(nxt())))
            elif t in ('_payload_', '_body_'): out.append(('payload', t))
            elif t == '_padding_': expect('['); n = num(nxt()); expect(']'); out.append(('padding', n))
            elif peek() == ':':
                nxt(); ty = nxt()
                if peek() == '[':
                    nxt(); n = None
                    if peek() != ']': n = num(nxt())
                    expect(']'); out.append(('array', t, ty, n))
                else: out.append(('field', t, ty))
            else: out.append(('group', t))
            if peek() == ',': nxt()
        expect('}')
        return out
    while i < len(toks):
        t, line = toks[i]; i += 1
        if t == 'little_endian_packets': continue
        if t == 'custom_field': n = nxt(); expect(':'); customs[n] = num(nxt()); nxt(); continue
        if t == 'enum':
            n = nxt(); expect(':'); w = num(nxt()); expect('{'); tags = {}
            while peek() != '}':
                a = nxt()
                if peek() == '=':
                    nxt(); v = nxt()
                    if v == '..': tags[a] = '..'
                    else:
                        tags[a] = num(v)
                        if peek() == '..': nxt(); nxt(); tags[a] = '..'
                        if peek() == '{':
                            d = 0
                            while True:
                                x = nxt(); d += (x == '{') - (x == '}')
                                if d == 0: break
                if peek() == ',': nxt()
            expect('}'); enums[n] = (w, tags); continue
        if t == 'struct': n = nxt(); structs[n] = (fields(), line); continue
        if t == 'group': n = nxt(); groups[n] = fields(); continue
        if t == 'packet':
            n = nxt(); par = None; cons = []
            if peek() == ':':
                nxt(); par = nxt()
                if peek() == '(':
                    nxt()
                    while peek() != ')':
                        f = nxt(); expect('='); cons.append((f, nxt()))
                        if peek() == ',': nxt()
                    expect(')')
            decls.append((n, par, cons, fields(), line)); continue
        if t == 'test':
            n = nxt(); expect('{'); l = []
            while peek() != '}':
                x = nxt()
                if x.startswith('"'): l.append(bytes(int(h, 16) for h in re.findall(r'\\x([0-9a-fA-F]{2})', x)))
            expect('}'); tests.append((n, l)); continue
        raise Exception((t, line))
    return dict(decls=decls, enums=enums, structs=structs, groups=groups, customs=customs, tests=tests)
