#!/usr/bin/env python3
"""Writes the modules lean/Verif/Model/SgTable/T*.lean (the lines of src/data/sgtable.data, verbatim) and
lean/Verif/Lemmas/SgTable/*.lean (the same lines in structured form, with certificates). Nothing here is trusted:
Lean checks that the structured form gives the lines, and checks the certificates."""
import re, os, sys
from fractions import Fraction as Fr
SRC = '/repo/src/data/sgtable.data'
ROOT = '/verif/lean/Verif'
CH = 450
raw = open(SRC, newline='').read()
lines = raw.split('\n')
if lines[-1] == '': lines.pop()
lines = [l[:-1] if l.endswith('\r') else l for l in lines]

# --- coordinates
cos = {}; colist = []
TERM = re.compile(r'([+-]?)(?:(\d+)(?:/(\d+))?(?:\*?([xyz]))?|([xyz]))')
def co(text):
    if text in cos: return cos[text]
    pos = 0; ts = []; row = [Fr(0)] * 4
    while pos < len(text):
        m = TERM.match(text, pos); assert m, text
        neg = 'true' if m.group(1) == '-' else 'false'
        sg = -1 if m.group(1) == '-' else 1
        if m.group(5):
            k = 'xyz'.index(m.group(5)); ts.append('.axis %s %d' % (neg, k)); row[k] += sg
        elif m.group(4):
            assert m.group(3) and '*' in m.group(0)
            k = 'xyz'.index(m.group(4)); ts.append('.times %s %s %s %d' % (neg, m.group(2), m.group(3), k)); row[k] += sg * Fr(int(m.group(2)), int(m.group(3)))
        elif m.group(3):
            ts.append('.frac %s %s %s' % (neg, m.group(2), m.group(3))); row[3] += sg * Fr(int(m.group(2)), int(m.group(3)))
        else:
            ts.append('.int %s %s' % (neg, m.group(2))); row[3] += sg * int(m.group(2))
        pos = m.end()
    r = [24 * x for x in row]
    assert all(x.denominator == 1 for x in r), text
    r = tuple(int(x) for x in r)
    key = (((r[0] + 100) * 200 + (r[1] + 100)) * 200 + (r[2] + 100)) * 24 + r[3] % 24
    cos[text] = len(colist); colist.append((ts, text, r, key))
    return cos[text]
PAD = [None, 'y', 'z']
trs = {}; trlist = []
def tr(text):
    cs = text.split(','); n = len(cs)
    cs = cs + [PAD[i] for i in range(n, 3)]
    t = tuple(co(c) for c in cs)
    if t not in trs: trs[t] = len(trlist); trlist.append(t)
    return trs[t], n
def q(i): return tuple(colist[c][2] for c in trlist[i])          # rows, times 24
# --- arithmetic on rows times 24
def comp(p, r):
    out = []
    for i in range(3):
        o = [sum(p[i][k] * r[k][j] for k in range(3)) for j in range(3)]
        o.append(sum(p[i][k] * r[k][3] for k in range(3)) + 24 * p[i][3])
        assert all(x % 24 == 0 for x in o), (p, r)
        out.append(tuple(x // 24 for x in o))
    return tuple(out)
def compF(p, r):  # exact, Fractions
    return tuple(tuple(Fr(sum(p[i][k] * r[k][j] for k in range(3)) + (24 * p[i][3] if j == 3 else 0)) / 24 for j in range(4)) for i in range(3))
def modz(p): return tuple((r[0], r[1], r[2], r[3] % 24) for r in p)
ID = ((24, 0, 0, 0), (0, 24, 0, 0), (0, 0, 24, 0))
def inv(p):
    M = [[Fr(p[i][j], 24) for j in range(3)] + [Fr(int(i == j)) for j in range(3)] for i in range(3)]
    for c in range(3):
        k = next(i for i in range(c, 3) if M[i][c] != 0); M[c], M[k] = M[k], M[c]
        M[c] = [x / M[c][c] for x in M[c]]
        for i in range(3):
            if i != c: M[i] = [x - M[i][c] * y for x, y in zip(M[i], M[c])]
    B = [r[3:] for r in M]
    t = [-sum(B[i][k] * Fr(p[k][3], 24) for k in range(3)) for i in range(3)]
    r = tuple(tuple(24 * x for x in B[i]) + (24 * t[i],) for i in range(3))
    assert all(x.denominator == 1 for y in r for x in y)
    return tuple(tuple(int(x) for x in y) for y in r)
UNITS = [((24, 0, 0, 24), (0, 24, 0, 0), (0, 0, 24, 0)), ((24, 0, 0, 0), (0, 24, 0, 24), (0, 0, 24, 0)), ((24, 0, 0, 0), (0, 24, 0, 0), (0, 0, 24, 24))]

class Setting: pass
def certify(s):
    ops = [q(t) for t in s.ops]
    s.idx = {modz(o): i for i, o in enumerate(ops)}
    assert len(s.idx) == len(ops) and ops[0] == ID
    n = len(ops)
    row = {}
    def perm(g):
        if g not in row: row[g] = [s.idx[modz(comp(ops[g], o))] for o in ops]
        return row[g]
    def close(gens):
        S = {0}; fr = [0]
        while fr:
            nf = []
            for j in fr:
                for g in gens:
                    i = perm(g)[j]
                    if i not in S: S.add(i); nf.append(i)
            fr = nf
        return S
    gens = []; S = {0}
    while len(S) < n:
        best = max(range(n), key=lambda g: len(close(gens + [g])))
        gens.append(best); S = close(gens)
    s.gens = [(s.ops[g], sum(v << (8 * j) for j, v in enumerate(perm(g))), perm(g).index(0)) for g in gens]
    w = {0: []}; fr = [0]
    while fr:
        nf = []
        for j in fr:
            for k, g in enumerate(gens):
                i = perm(g)[j]
                if i not in w: w[i] = [k] + w[j]; nf.append(i)
        fr = nf
    s.words = [w[i] for i in range(n)]
def into(f, fi, s, c):
    ks = []
    for g in [q(t) for t, _, _ in s.gens] + UNITS[:s.dim]:
        h = compF(compF(f, g), fi)
        assert all(x.denominator == 1 for r in h for x in r)
        ks.append(c.idx[modz(tuple(tuple(int(x) for x in r) for r in h))])
    return ks

# --- the items
items = []; lineno = []; settings = {}; blocks = []; aligned_lines = 0
i = 0
def blocklines(b): return sum(1 + len(s.ops) for s in b)
cur = None
while i < len(lines):
    l = lines[i]; c = l.strip()
    if not c or c[0] == '#':
        items.append(('nothing', l)); lineno.append(i); i += 1; continue
    f = c.split(); assert l[0] != ' ' and ' '.join(f) == l, l
    if f[0] == 'alias':
        assert len(f) == 3; items.append(('alias', f[1], f[2])); lineno.append(i); i += 1
    elif f[0] == 'lookup':
        assert len(f) == 5; items.append(('look', f[1], f[2], f[3], f[4])); lineno.append(i); i += 1
    else:
        assert len(f) == 2
        s = Setting(); s.name = f[0]; s.tr, s.dim = tr(f[1]); s.inv = inv(q(s.tr)); s.ops = []; s.aligned = False
        j = i + 1
        while j < len(lines) and lines[j].startswith(' ') and lines[j].strip():
            t = lines[j].strip(); k, n = tr(t); assert n == s.dim
            if lines[j] != '    ' + t: s.aligned = True
            s.ops.append(k); j += 1
        if s.aligned:
            for x in lines[i + 1:j]: assert x == ('   ' if x.strip()[0] == '-' else '    ') + x.strip()
        assert s.name not in settings
        s.id = len(settings); settings[s.name] = s
        certify(s)
        if q(s.tr) == ID:
            items.append(('block', [s])); lineno.append(i); s.block = len(blocks); blocks.append(items[-1][1])
        else:
            assert items[-1][0] == 'block'
            b = items[-1][1]; b.append(s)
            s.fwd = into(q(s.tr), s.inv, s, b[0]); s.bwd = into(s.inv, q(s.tr), b[0], s)
        i = j
CEN = {'p': ('primitive2d', 2, []), 'c': ('centered2d', 2, ['x+1/2,y+1/2']), 'P': ('primitive', 3, []),
  'F': ('faceCentered', 3, ['x,y+1/2,z+1/2', 'x+1/2,y,z+1/2', 'x+1/2,y+1/2,z']), 'I': ('bodyCentered', 3, ['x+1/2,y+1/2,z+1/2']),
  'R': ('rhombohedral', 3, ['x+1/3,y+2/3,z+2/3', 'x+2/3,y+1/3,z+1/3']), 'A': ('aFaceCentered', 3, ['x,y+1/2,z+1/2']),
  'B': ('bFaceCentered', 3, ['x+1/2,y,z+1/2']), 'C': ('cFaceCentered', 3, ['x+1/2,y+1/2,z'])}
lat = {}
for k, (nm, d, vs) in CEN.items():
    s = Setting(); s.name = ''; s.dim = d; s.tr = tr('x,y' if d == 2 else 'x,y,z')[0]; s.inv = ID
    s.ops = [s.tr] + [tr(v)[0] for v in vs]; s.aligned = False; certify(s); lat[k] = s
looks = []
for it in items:
    if it[0] != 'look': continue
    s = Setting(); s.name = ''; s.tr, s.dim = tr(it[4]); s.inv = inv(q(s.tr)); s.aligned = False
    c = settings[it[1]]; assert c.dim == s.dim and q(c.tr) == ID
    s.ops = [t for t in c.ops if all(q(t)[a][:3] == ID[a][:3] for a in range(3))]
    certify(s)
    s.fwd = into(q(s.tr), s.inv, s, lat[it[3]]); s.bwd = into(s.inv, q(s.tr), lat[it[3]], s)
    s.id = len(looks); looks.append((it, s, c))
# --- output
def lstr(s): return '"' + s.replace('\\', '\\\\').replace('"', '\\"') + '"'
def ints(r): return ' '.join(str(x) for x in r)
def qlit(p): return 'q! "%s"' % ' '.join(ints(r) for r in p)
def setting(s):
    return '⟨chars! %s, %d, t%d, %s, trs! "%s", gens! "%s", words! "%s", %s⟩' % (lstr(s.name), s.dim, s.tr, qlit(s.inv), ints(s.ops),
        ';'.join('%d %d %d' % g for g in s.gens), ';'.join(ints(w) for w in s.words), 'true' if s.aligned else 'false')
chunks = []; cs = []; size = 0
def nlines(it): return blocklines(it[1]) if it[0] == 'block' else 1
start = 0; ln = 0
for it in items:
    if cs and size + nlines(it) > CH and it[0] == 'block' or (it[0] == 'look' and cs and cs[-1][0] != 'look'):
        chunks.append((cs, start, ln)); cs = []; size = 0; start = ln
    cs.append(it); size += nlines(it); ln += nlines(it)
chunks.append((cs, start, ln))
assert ln == len(lines)
def write(path, text):
    p = os.path.join(ROOT, path); os.makedirs(os.path.dirname(p), exist_ok=True)
    old = open(p).read() if os.path.exists(p) else None
    if old != text: open(p, 'w').write(text)
HEAD = '/-! Written by tools/gen_sgtable.py. %s -/\n\n'
out = 'import Verif.Lemmas.SgTable.Base\n\n' + HEAD % 'The coordinates and operators that occur in the table.'
out += 'namespace Systre.Sg.Data\nset_option maxRecDepth 100000\n\n'
for k, (ts, text, r, key) in enumerate(colist):
    out += 'noncomputable def c%d : Co := ⟨[%s], chars! %s, r! "%s", nat! "%d", by decide +kernel⟩\n' % (k, ', '.join(ts), lstr(text), ints(r), key)
for k, t in enumerate(trlist):
    out += 'noncomputable def t%d : Tr := ⟨c%d, c%d, c%d⟩\n' % ((k,) + t)
out += '\n/-- the lattices of the centerings -/\nnoncomputable def lat : Table.Centering → Setting\n'
for k, s in lat.items(): out += '  | .%s => %s\n' % (CEN[k][0], setting(s))
out += '\nend Systre.Sg.Data\n'
write('Lemmas/SgTable/Ops.lean', out)
li = 0
for k, (its, a, b) in enumerate(chunks, 1):
    out = HEAD % ('Lines %d to %d of src/data/sgtable.data.' % (a + 1, b))
    out += 'namespace Systre.Table\nset_option maxRecDepth 100000\n\n/-- lines %d to %d of src/data/sgtable.data -/\ndef sgLines%d : List String := [\n' % (a + 1, b, k)
    out += ',\n'.join('  ' + lstr(l) for l in lines[a:b]) + ']\n\nend Systre.Table\n'
    write('Model/SgTable/T%d.lean' % k, out)
    out = 'import Verif.Lemmas.SgTable.Ops\nimport Verif.Model.SgTable.T%d\n\n' % k + HEAD % ('Lines %d to %d.' % (a + 1, b))
    out += 'namespace Systre.Sg.Data\nset_option maxRecDepth 1000000\nset_option maxHeartbeats 0\n\n'
    il = []; bl = []
    for it in its:
        if it[0] == 'nothing': il.append('.nothing (chars! %s)' % lstr(it[1]))
        elif it[0] == 'alias': il.append('.alias_ (chars! %s) (chars! %s)' % (lstr(it[1]), lstr(it[2])))
        elif it[0] == 'look':
            _, s, c = looks[li]; assert looks[li][0] is it; li += 1
            out += 'noncomputable def l%d : Look := ⟨chars! %s, .%s, .%s, nat! "%d", ⟨%s, nats! "%s", nats! "%s"⟩⟩\n' % (s.id, lstr(it[1]), it[2], CEN[it[3]][0], c.block, setting(s), ints(s.fwd), ints(s.bwd))
            il.append('.look l%d' % s.id)
        else:
            for s in it[1]: out += 'noncomputable def s%d : Setting := %s\n' % (s.id, setting(s))
            bid = it[1][0].block
            out += 'noncomputable def b%d : Block := ⟨s%d, [%s]⟩\n' % (bid, it[1][0].id, ', '.join('⟨s%d, nats! "%s", nats! "%s"⟩' % (s.id, ints(s.fwd), ints(s.bwd)) for s in it[1][1:]))
            il.append('.block b%d' % bid); bl.append(bid)
    out += '\nnoncomputable def items%d : List Item := [\n  %s]\n\n' % (k, ',\n  '.join(il))
    out += 'theorem good%d : allB (Item.goodB lat) items%d = true := by decide +kernel\n\n' % (k, k)
    out += 'theorem text%d : Table.sgLines%d = (items%d.flatMap Item.lines).map String.ofList := by krfl\n\nend Systre.Sg.Data\n' % (k, k, k)
    write('Lemmas/SgTable/C%d.lean' % k, out)
K = len(chunks)
out = ''.join('import Verif.Model.SgTable.T%d\n' % k for k in range(1, K + 1))
out += '\n' + HEAD % 'The shipped table of space groups.'
out += '/-! The text is the file `src/data/sgtable.data`, as `BufRead::lines` yields it (the file has CR LF line ends, which are removed). -/\n\nnamespace Systre.Table\n\n'
out += '/-- the lines of src/data/sgtable.data (1-%d) -/\ndef sgTable : List (List Char) := (%s).map String.toList\n\nend Systre.Table\n' % (len(lines), ' ++ '.join('sgLines%d' % k for k in range(1, K + 1)))
write('Model/SgTable.lean', out)
names = [s.name for s in settings.values()]
def nkey(w):
    v = 0
    for ch in reversed(w): v = v * 256 + ord(ch)
    return v
anames = [it[1] for it in items if it[0] == 'alias']
rev = {c.block: s.id for it, s, c in looks}
out = 'import Verif.Model.SgTable\n' + ''.join('import Verif.Lemmas.SgTable.C%d\n' % k for k in range(1, K + 1))
out += '\n' + HEAD % 'All the lines.' + 'namespace Systre.Sg.Data\nset_option maxRecDepth 1000000\nset_option maxHeartbeats 0\n\n'
out += '/-- the items of the table -/\nnoncomputable def items : List Item := %s\n\n' % ' ++ '.join('items%d' % k for k in range(1, K + 1))
out += 'theorem text : Table.sgTable = items.flatMap Item.lines := by\n  unfold Table.sgTable items\n  rw [%s]\n  simp only [← List.map_append, ← List.flatMap_append, List.map_map]\n  exact map_toList_ofList _\n\n' % ', '.join('text%d' % k for k in range(1, K + 1))
out += 'theorem good : ∀ i ∈ items, i.goodB lat = true := by\n  unfold items\n  intro i hi\n  simp only [List.mem_append] at hi\n'
out += '  rcases hi with %s\n' % ('(' * (K - 2) + 'hi | hi' + ''.join(') | hi' for _ in range(K - 2)))
for k in range(1, K + 1): out += '  · exact allB_iff.1 good%d i hi\n' % k
out += '\n/-- the names of the settings as numbers -/\nnoncomputable def keys : List Nat := nats! "%s"\n\n' % ints(nkey(n) for n in names)
out += 'theorem keys_eq : natsEq (items.flatMap Item.settings |>.map (fun p => nameKey p.1.name)) keys = true := by decide +kernel\n\n'
out += 'theorem keys_nodup : nodup keys = true := by decide +kernel\n\n'
out += '/-- the aliases as numbers -/\nnoncomputable def aliasKeys : List Nat := nats! "%s"\n\n' % ints(nkey(n) for n in anames)
out += 'theorem aliasKeys_eq : natsEq (items.flatMap Item.aliases |>.map (fun p => nameKey p.1)) aliasKeys = true := by decide +kernel\n\n'
out += 'theorem aliasKeys_nodup : nodup aliasKeys = true := by decide +kernel\n\n'
out += '/-- the blocks -/\nnoncomputable def blocks : List Block := [%s]\n\n' % ', '.join('b%d' % k for k in range(len(blocks)))
out += 'theorem blocks_eq : items.flatMap Item.blocks = blocks := by krfl\n\n'
out += '/-- the lookups -/\nnoncomputable def looks : List Look := [%s]\n\n' % ', '.join('l%d' % k for k in range(len(looks)))
out += 'theorem looks_eq : items.flatMap Item.looks = looks := by krfl\n\n'
out += 'theorem looks_ok : allB (lookOk b0 blocks) looks = true := by decide +kernel\n\n'
out += '/-- for each block the number of its lookup -/\nnoncomputable def lookOf : List Nat := nats! "%s"\n\n' % ints(rev.get(k, 0) for k in range(len(blocks)))
out += 'theorem complete : completeOk l0 looks blocks lookOf = true := by decide +kernel\n\n'
out += '/-- the names in the lookups as numbers -/\nnoncomputable def lookKeys : List Nat := nats! "%s"\n\n' % ints(nkey(it[1]) for it, s, c in looks)
out += 'theorem lookKeys_eq : natsEq (looks.map (fun l => nameKey l.name)) lookKeys = true := by decide +kernel\n\n'
out += 'theorem lookKeys_nodup : nodup lookKeys = true := by decide +kernel\n\n'
out += 'end Systre.Sg.Data\n'
write('Lemmas/SgTable/All.lean', out)
def rk(r): return (((r[0] + 100) * 200 + (r[1] + 100)) * 200 + (r[2] + 100)) * 24 + r[3] % 24
def key(p): return (rk(p[0]) * 10 ** 9 + rk(p[1])) * 10 ** 9 + rk(p[2])
sums = [4 * sum(pow(key(comp(comp(q(s.tr), q(o)), s.inv)), 5, 2 ** 61 - 1) for o in c.ops) + s.dim for it, s, c in looks]
out = 'import Verif.Lemmas.SgTable.All\nimport Verif.Lemmas.SgDistinct\n\n' + HEAD % 'The groups of the lookups in standard coordinates.'
out += 'namespace Systre.Sg.Data\nset_option maxRecDepth 1000000\nset_option maxHeartbeats 0\n\n'
out += '/-- numbers for the groups of the lookups -/\nnoncomputable def sums : List Nat := nats! "%s"\n\n' % ints(sums)
out += 'theorem std_ok : allB (fun l => stdOk l.o.s.tr.q l.o.s.trInv l.o.s.dim (nth b0 blocks l.block).c.ops) looks = true := by decide +kernel\n\n'
out += 'theorem sums_eq : natsEq (looks.map (fun l => groupKey l (nth b0 blocks l.block).c.ops)) sums = true := by decide +kernel\n\n'
out += 'theorem sums_nodup : nodup sums = true := by decide +kernel\n\n'
out += 'end Systre.Sg.Data\n'
write('Lemmas/SgTable/Distinct.lean', out)
print(K, 'chunks', [b - a for _, a, b in chunks], len(colist), len(trlist), len(settings), len(looks), len(blocks))
