#!/usr/bin/env python3
"""Compare the straight-line code and the tables of /repo with their transcription in lean/Verif/Model, token by token.

This is no proof and no part of one. It is an aid for checking by hand that the model is the code: it finds a transcription
error in long runs of similar statements, where reading is least reliable. The line numbers are those in the comments of the model.
Run without arguments; prints what differs and exits with 1 if anything does.
"""
import json, os, re, sys

REPO = '/repo/'
MODEL = os.path.join(os.path.dirname(os.path.abspath(__file__)), '../lean/Verif/Model/')
bad = 0
done = 0
statements = 0

DROP = {'let', 'mut', 'as', 'usize', 'unsafe', 'inline', 'always'}


def tokens(text):
    text = re.sub(r'//[^\n]*|/-.*?-/|--[^\n]*|/\*.*?\*/', ' ', text, flags=re.S)
    return [t for t in re.findall(r'[A-Za-z_]\w*|0x[0-9A-Fa-f]+|\d\w*', text) if t not in DROP]


def rust_lines(file, first, last):
    return '\n'.join(open(REPO + file).read().split('\n')[first - 1:last])


def rust_fn(file, name, kind='fn', nth=0):
    """The body of a function (or macro), without the braces."""
    s = open(REPO + file).read()
    m = list(re.finditer(kind + r'\s+' + name + r'\b', s))[nth]
    i = s.index('{', m.end())
    depth, j = 0, i
    while True:
        if s[j] == '{':
            depth += 1
        if s[j] == '}':
            depth -= 1
            if depth == 0:
                return s[i + 1:j]
        j += 1


def lean_def(file, name):
    """The right-hand side of a definition."""
    s = open(MODEL + file).read()
    m = re.search(r'^def ' + re.escape(name) + r'\b(.*?)(?=^(?:def|/--|structure|end|namespace|theorem|/-!|abbrev|instance|@\[)|\Z)', s, re.S | re.M)
    if not m:
        raise Exception(f'{file}: no definition {name}')
    body = m.group(1)
    depth = 0
    for k in range(len(body)):
        if body[k] in '([':
            depth += 1
        if body[k] in ')]':
            depth -= 1
        if depth == 0 and body.startswith(':=', k):
            return body[k + 2:]
    raise Exception(f'{file}: {name} has no :=')


def same(what, r, l):
    global bad, done, statements
    done += 1
    statements += len(r)
    if r != l:
        bad += 1
        k = next((i for i, (x, y) in enumerate(zip(r, l)) if x != y), min(len(r), len(l)))
        print(f'DIFFERENT {what}: at token {k}')
        print('   code :', ' '.join(r[max(0, k - 6):k + 10]))
        print('   model:', ' '.join(l[max(0, k - 6):k + 10]))


def strip(t):
    return [re.sub(r'^_(mm|MM)', r'\1', x) for x in t]


# ---- the rounds of compress_block (BLAKE2b AVX2, BLAKE2s SSE4.1)
def rounds(rust, lean, rows, diag, n):
    body = rust_fn(rust, 'compress_block')
    parts = re.split(r'//\s*round (\d+)', body)
    for k in range(1, n + 1):
        text = parts[parts.index(str(k)) + 1]
        text = re.sub(r'\b(g1|g2)\(\s*' + r',\s*'.join('(?:&mut )?' + x for x in rows) + r',\s*(?:&mut )?(\w+),?\s*\)', r'v \1 v \2', text)
        three = r',\s*'.join('(?:&mut )?' + x for x in diag)
        text = re.sub(r'\b(diagonalize|undiagonalize)\(\s*' + three + r',?\s*\)', r'v \1 v', text)
        r = strip(tokens(text))
        i = max(j for j, t in enumerate(r) if t == 'undiagonalize')
        l = tokens(lean_def(lean, f'round{k}'))
        l = l[:-2] + ['v'] + l[-2:]
        same(f'{rust} compress_block round {k}', r[:i + 2], l)


rounds('blake2b/src/avx2.rs', 'BAvx2.lean', ['a', 'b', 'c', 'd'], ['a', 'b', 'c', 'd'], 12)
rounds('blake2s/src/sse41.rs', 'SSse41.lean', ['row1', 'row2', 'row3', 'row4'], ['row1', 'row3', 'row4'], 10)

FILES = [('blake2b/src/avx2.rs', 'BAvx2.lean', 4), ('blake2b/src/sse41.rs', 'BSse41.lean', 2),
         ('blake2s/src/sse41.rs', 'SSse41.lean', 4), ('blake2s/src/avx2.rs', 'SAvx2.lean', 8)]

# ---- wrappers of intrinsics
for rust, lean, n in FILES:
    w = 'rot32 rot24 rot16 rot63' if 'blake2b' in rust else 'rot16 rot12 rot8 rot7'
    for f, g in [('add', 'add'), ('eq', 'eq'), ('and', 'and'), ('xor', 'xor'), ('negate_and', 'negateAnd'), ('set1', 'set1')] + [(x, x) for x in w.split()]:
        r = [t for t in strip(tokens(rust_fn(rust, f))) if t not in ('i32', 'i64')]
        r = ['x' if t == 'a' and f.startswith('rot') else t for t in r]
        same(f'{rust} {f}', r, tokens(lean_def(lean, g)))
    # setN: the arguments are a vector in the model
    r = [x for x in strip(tokens(rust_fn(rust, f'set{n}'))) if x not in ('i32', 'i64')]
    names = re.search(rf'fn set{n}\((.*?)\)', open(REPO + rust).read(), re.S).group(1)
    names = [x for x in re.findall(r'(\w+)\s*:', names)]
    r = [y for x in r for y in (['v', str(names.index(x))] if x in names else [x])]
    same(f'{rust} set{n}', r, tokens(lean_def(lean, 'setN')))

# ---- transposition of vectors
for rust, lean, n in FILES:
    if n == 2:
        continue
    same(f'{rust} transpose_vecs', strip(tokens(rust_fn(rust, 'transpose_vecs'))), tokens(lean_def(lean, 'transposeVecs').replace('#v[', '[')))
    if 'avx2' in rust:
        same(f'{rust} interleave128', strip(tokens(rust_fn(rust, 'interleave128'))), tokens(lean_def(lean, 'interleave128')))

# ---- the N-way round: one text in the model, four in the code
for rust, lean, n in FILES:
    w = ['rot32', 'rot24', 'rot16', 'rot63'] if 'blake2b' in rust else ['rot16', 'rot12', 'rot8', 'rot7']
    r = tokens(re.sub(r'SIGMA\[r\]\[(\d+)\]', r's[\1]', rust_fn(rust, 'round')))
    r = ['rot' + 'ABCD'[w.index(t)] if t in w else t for t in r]
    l = []
    for half in ('roundColumns', 'roundDiagonals'):
        body = lean_def('NWay.lean', half)
        body = re.sub(r'^\s*let v\d+ := v\[\d+\]\n', '', body, flags=re.M)
        body = re.sub(r'#v\[v0, v1.*?\]', '', body, flags=re.S)
        l += tokens(re.sub(r'\bv(\d+)\b', r'v[\1]', body).replace('o.', ''))
    same(f'{rust} round', r, l)

# ---- the vector at the start, and the end, of compressN_transposed
for rust, lean, n in FILES:
    body = rust_fn(rust, f'compress{n}_transposed', 'macro_rules!')
    i = body.index('let mut v = [')
    start = tokens(body[i + len('let mut v = ['):body.index('];', i)])
    j = body.index('h_vecs[0] = xor')
    end = tokens(body[j:])
    calls = re.findall(r'round\(&mut v, &msg_vecs, (\d+)\)', body)
    same(f'{rust} compress{n}_transposed rounds', calls, [str(k) for k in range(12 if 'blake2b' in rust else 10)])
    print_start = (start, end)
    want = []
    for k in range(8):
        want += ['h_vecs', str(k)]
    for k in range(4):
        want += ['set1', 'IV', str(k)]
    for k, c in enumerate(['count_low', 'count_high', 'lastblock', 'lastnode']):
        want += ['xor', 'set1', 'IV', str(4 + k), c]
    same(f'{rust} compress{n}_transposed start', start, want)
    want = []
    for k in range(8):
        want += ['h_vecs', str(k), 'xor', 'xor', 'h_vecs', str(k), 'v', str(k), 'v', str(k + 8)]
    same(f'{rust} compress{n}_transposed end', end, want)

# ---- tables
for crate, alg in (('blake2b', 'b'), ('blake2s', 's')):
    s = open(f'{REPO}{crate}/src/lib.rs').read()
    iv = re.search(r'const IV: \[Word; 8\] = \[(.*?)\];', s, re.S).group(1)
    sg = re.search(r'const SIGMA: \[\[u8; 16\]; \d+\] = \[(.*?)\n\];', s, re.S).group(1)
    m = open(MODEL + 'Base.lean').read() + open(MODEL + 'Portable.lean').read() + open(MODEL + 'Guts.lean').read() + open(MODEL + 'Lib.lean').read()
    nums = [int(x.replace('_', ''), 16) for x in re.findall(r'0x([0-9A-Fa-f_]+)', iv)]
    text = re.search(r'def IV\b.*?(?=\n\n|\n/--)', m, re.S).group(0)
    mine = [int(x, 16) for x in re.findall(r'0x([0-9A-Fa-f]+)', text)]
    same(f'{crate} IV', [hex(x) for x in nums], [hex(x) for x in (mine[:8] if alg == 'b' else mine[8:16])])
    rows = [re.findall(r'\d+', r) for r in re.findall(r'\[([\d,\s]+)\]', sg)]
    text = re.search(r'def SIGMA\b.*?(?=\n\n|\n/--)', m, re.S).group(0)
    mine = [re.findall(r'\d+', r) for r in re.findall(r'#v\[([\d,\s]+)\]', text)]
    mine = mine[:12] if alg == 'b' else mine[12:22]
    same(f'{crate} SIGMA', sum(rows, []), sum(mine, []))

# ---- g1, g2, diagonalize, undiagonalize: the rows are the fields of one value in the model
def cells(text):
    text = text[:text.index('⟨')] if '⟨' in text else text
    return [t for t in tokens(re.sub(r'\bv\.', '', text))]


for rust, lean, rows in (('blake2b/src/avx2.rs', 'BAvx2.lean', 'a b c d'), ('blake2s/src/sse41.rs', 'SSse41.lean', 'row1 row2 row3 row4')):
    for f in ('g1', 'g2'):
        same(f'{rust} {f}', strip(tokens(rust_fn(rust, f))), cells(lean_def(lean, f)))
    for f in ('diagonalize', 'undiagonalize'):
        # one expression for each row, the same row if it is not assigned
        r = {x: [x] for x in rows.split()}
        for x, e in re.findall(r'\*(\w+) = (.*?);', rust_fn(rust, f), re.S):
            r[x] = strip(tokens(e))
        text = lean_def(lean, f)
        l = re.split(r',', text[text.index('⟨') + 1:text.index('⟩')])
        for x, e in zip(rows.split(), l):
            same(f'{rust} {f} {x}', r[x], cells(e))

# ---- where transpose_state and transpose_msg_vecs load, and where untranspose_state stores
for rust, lean, n in FILES:
    name = lambda i, k: f'{i}.{k}'
    body = rust_fn(rust, 'transpose_state_vecs')
    r = [name(*x) for x in re.findall(r'loadu\(words(\d)\.(\d)\)', body)] or [name(x, 0) for x in re.findall(r'loadu\(jobs\[(\d)\]\.words\)', body)]
    l = []
    for v in re.findall(r'loadu #v\[((?:w\[\d\]\[\d\](?:, )?)+)\]', lean_def(lean, 'transposeState')):
        ix = [(int(x), int(y)) for x, y in re.findall(r'w\[(\d)\]\[(\d)\]', v)]
        ok = len(ix) == n and all(x == (ix[0][0], ix[0][1] + k) for k, x in enumerate(ix)) and ix[0][1] % n == 0
        l.append(name(ix[0][0], ix[0][1] // n) if ok else '?')
    same(f'{rust} transpose_state_vecs', r, l)
    r = [name(*x) for x in re.findall(r'loadu\(block(\d)\.add\((\d)\)\)', rust_fn(rust, 'transpose_msg_vecs'))]
    l = [name(*x) for x in re.findall(r'loadBlock blocks\[(\d)\] (\d)', lean_def(lean, 'transposeMsg'))]
    same(f'{rust} transpose_msg_vecs', r, l)
    body = rust_fn(rust, 'untranspose_state_vecs')
    calls = [re.findall(r'h_vecs\[(\d)\]', c) for c in re.findall(r'transpose_vecs\((.*?)\)', body, re.S)]
    stores = re.findall(r'storeu\(out\[(\d)\], (?:words(\d)\.(\d)|jobs\[(\d)\]\.words)\)', body)
    r = sorted(name(j or j2, k or '0') + ' = ' + i + ' of ' + ' '.join(calls[pos // n]) for pos, (i, j, k, j2) in enumerate(stores))
    text = lean_def(lean, 'untransposeState')
    lcalls = [re.findall(r'h\[(\d)\]', c) for c in re.findall(r'transposeVecs (.*)', text)]
    l = []
    for j, row in enumerate(re.search(r'#v\[(.*)\]', text, re.S).group(1).split(',')):
        for k, (c, i) in enumerate(re.findall(r'storeu out(\d)\[(\d)\]', row)):
            l.append(name(j, k) + ' = ' + i + ' of ' + ' '.join(lcalls[int(c)]))
    same(f'{rust} untranspose_state_vecs', r, sorted(l))
    # the results are kept in order in both
    for g in ('transposeState', 'transposeMsg'):
        text = lean_def(lean, g)
        l = re.findall(r't(\d+)\[(\d)\]', text[text.rindex('#v['):])
        same(f'{lean} {g} order', [f'{k // n} {k % n}' for k in range(len(l))], [f'{x} {y}' for x, y in l])

# ---- the vendored C library
C = 'benches/blake2-avx2-sneves/blake2-avx2/'


def macro(file, name, nth=0):
    s = open(REPO + C + file).read()
    m = list(re.finditer(r'^#\s*define\s+' + name + r'\b(\([^)]*\))?((?:.*\\\n)*.*)', s, re.M))[nth]
    return re.sub(r'while ?\(0\)|(?m:^)\s*__m256i \w+(, \w+)*;\s*(?m:$)', '', m.group(2).replace('\\\n', '\n'))


def ctokens(text, rename={}):
    t = strip(tokens(text))
    t = [rename.get(x, x) for x in t]
    return [x for x in t if x not in ('do', 'while', '__m256i', '__m128i', 'const')]


def finish(t, result):
    """`b0 = e` at the end of a macro is `e` at the end of a definition."""
    i = max(k for k, x in enumerate(t) if x == result)
    return t[:i] + t[i + 1:]


low = {x: x.lower() for x in 'ADD XOR AND OR ROT32 ROT24 ROT16 ROT63 ROT12 ROT8 ROT7 ROTATE16 ROTATE24 ROTATE8'.split()}
for f in 'ADD XOR AND ROT32 ROT24 ROT16 ROT63 ROTATE16 ROTATE24'.split():
    same(f'blake2b-common.h {f}', ctokens(macro('blake2b-common.h', f), low), tokens(lean_def('SnevesB.lean', f.lower())))
for f in 'ADD XOR AND ROT16 ROT12 ROT8 ROT7 ROTATE16 ROTATE8'.split():
    same(f'blake2s-common.h {f}', ctokens(macro('blake2s-common.h', f), low), tokens(lean_def('SnevesSp.lean', f.lower())))
for r in range(12):
    for i in range(1, 5):
        t = ctokens(macro('blake2b-load-avx2.h', f'BLAKE2B_LOAD_MSG_{r}_{i}'))
        while t[-1] in '0':
            t = t[:-1]
        same(f'BLAKE2B_LOAD_MSG_{r}_{i}', finish(t, 'b0'), tokens(lean_def('SnevesB.lean', f'loadMsg_{r}_{i}')))
for r in range(10):
    for i in range(1, 5):
        t = ctokens(macro('blake2s-load-sse41.h', f'BLAKE2S_LOAD_MSG_{r}_{i}'), {'TOI': 'mm_castps_si128', 'TOF': 'mm_castsi128_ps'})
        same(f'BLAKE2S_LOAD_MSG_{r}_{i}', finish(t, 'buf'), tokens(lean_def('SnevesSp.lean', f'loadMsg_{r}_{i}')))
for f, g in (('G1', 'g1'), ('G2', 'g2'), ('DIAG', 'diag'), ('UNDIAG', 'undiag')):
    for c in ('blake2b.c', 'blake2bp.c'):
        t = ctokens(macro(c, f'BLAKE2B_{f}_V1'), low)
        same(f'{c} BLAKE2B_{f}_V1', t[:-1] if t[-1] == '0' else t, cells(lean_def('SnevesB.lean', g)))
for file, name, lean, w, alg in (('blake2bp.c', 'BLAKE2B_ROUND_V4', 'SnevesBp.lean', ['ROT32', 'ROT24', 'ROT16', 'ROT63'], 'blake2b'),
                                 ('blake2sp.c', 'BLAKE2S_ROUND_V8', 'SnevesSp.lean', ['ROT16', 'ROT12', 'ROT8', 'ROT7'], 'blake2s')):
    text = macro(file, name, 1)
    text = re.sub(r'LOAD\(\(uint8_t const \*\)\(?m\)? \+ ' + alg + r'_sigma\[r\]\[2 ?\* ?(\d) ?\+ ?(\d)\]\)', lambda m: f'm[{2 * int(m.group(1)) + int(m.group(2))}]', text)
    r = ctokens(text, {'ADD': 'add', 'XOR': 'xor', **{x: 'rot' + 'ABCD'[k] for k, x in enumerate(w)}})
    r = r[:-1] if r[-1] == '0' else r
    l = []
    for half in ('roundColumns', 'roundDiagonals'):
        body = lean_def('SnevesRound.lean', half)
        body = re.sub(r'^\s*let v\d+ := v\[\d+\]\n', '', body, flags=re.M)
        body = re.sub(r'#v\[v0, v1.*?\]', '', body, flags=re.S)
        l += tokens(re.sub(r'\bv(\d+)\b', r'v[\1]', body).replace('o.', ''))
    same(f'{file} {name}', r, l)
    s = open(REPO + C + file).read()
    r = re.findall(r'\d+', re.search(alg + r'_sigma\[\d+\]\[16\] = \{(.*?)\};', s, re.S).group(1))
    same(f'{file} {alg}_sigma', r, re.findall(r'\d+', lean_def(lean, alg + '_sigma').replace('#v', '')))
for file, name, lean, g, out in (('blake2bp.c', 'BLAKE2B_PACK_MSG_V4', 'SnevesBp.lean', 'packMsgV4', 'w'), ('blake2sp.c', 'BLAKE2S_PACK_MSG_V8', 'SnevesSp.lean', 'packMsgV8', 'w'),
                                 ('blake2bp.c', 'BLAKE2B_UNPACK_STATE_V4', 'SnevesBp.lean', 'unpackStateV4', 'u'), ('blake2sp.c', 'BLAKE2S_UNPACK_STATE_V8', 'SnevesSp.lean', 'unpackStateV8', 'u')):
    r = ctokens(macro(file, name))
    text = lean_def(lean, g)
    text = text[:text.rindex('#v[')]
    l = tokens(re.sub(r'\b' + out + r'(\d+)\b', out + r'[\1]', text))
    same(f'{file} {name}', r, l)

for file, lean in (('blake2b.c', 'SnevesB.lean'), ('blake2bp.c', 'SnevesB.lean'), ('blake2sp.c', 'SnevesSp.lean')):
    s = open(REPO + C + file).read()
    r = re.findall(r'\d+', re.search(r' indices\[\d+\]\[16\] = \{(.*?)\};', s, re.S).group(1))
    same(f'{file} indices', r, re.findall(r'\d+', lean_def(lean, 'indices').replace('#v', '')))
    name = 'BLAKE2B_ROUND_V1' if lean == 'SnevesB.lean' else 'BLAKE2S_ROUND_V1'
    r = re.findall(r'indices\[r\]\[ ?(\d+)\]\), (\d+)\)|_(G1|G2|DIAG|UNDIAG)_V1', macro(file, name, 0))
    r = [x[2].lower() if x[2] else f'{int(x[0]) // 4}*{x[1]}' for x in r]
    l = re.findall(r'indexVec row (\d)\) (\d)|\b(g1|g2|diag|undiag) v', lean_def(lean, 'roundGather'))
    same(f'{file} {name} with gathers', r, [x[2] if x[2] else f'{x[0]}*{x[1]}' for x in l])
for file, name, rows, lean in (('blake2b-load-avx2-simple.h', 'BLAKE2B', 12, 'SnevesB.lean'), ('blake2s-load-sse2.h', 'BLAKE2S', 10, 'SnevesSp.lean')):
    r = [x for i in range(rows) for k in range(1, 5) for x in re.findall(r'\bm(\d+)', macro(file, f'{name}_LOAD_MSG_{i}_{k}'))]
    same(f'{file}', r, re.findall(r'\d+', lean_def(lean, 'simpleMsg').replace('#v', '')))

# ---- expected values of the tests and of the examples in the documentation
def hexes(text):
    text = re.sub(r'\\\n\s*(?://[/!]\s*)?', '', text)
    return set(re.findall(r'"([0-9a-f]{32,})"', text))


joined = set()
for d, _, fs in os.walk(REPO):
    for f in fs:
        if '/.git' in d:
            continue
        if f.endswith('.rs'):
            joined |= hexes(open(os.path.join(d, f)).read())
        if f == 'README.md' and 'avx2' not in d:
            joined |= set(re.findall(r'^([0-9a-f]{32,})$', open(os.path.join(d, f)).read(), re.M))
mine = set()
for f in ('UnitTests.lean', 'CliTests.lean', 'DocExamples.lean'):
    mine |= hexes(open(MODEL + f).read())
given = {x for x in mine if bytes.fromhex(x).isascii()}  # salts and personal strings of the command line
same('values in the tests', sorted(joined - given), sorted(mine - given))

# ---- tests/blake2-kat.json: `out` in order, and what the model says of `in` and `key`
kat = json.load(open(REPO + 'tests/blake2-kat.json'))
same('blake2-kat.json out', [e['out'] for e in kat], re.findall(r'"([0-9a-f]+)"', open(MODEL + 'KatData.lean').read()))
count = {}
for e in kat:
    k = count.get((e['hash'], e['key']), 0)
    count[e['hash'], e['key']] = k + 1
    if 'x' in e['hash']:
        want = [bytes(range(256)).hex(), 2 * (k + 1)]
    else:
        want = [bytes(range(k)).hex(), len(kat[0]['out']) * (1 if 's' in e['hash'] else 2)]
    same(f'blake2-kat.json {e["hash"]} {k}', [e['in'], len(e['out']), e['key']], want + [bytes(range(len(e['key']) // 2)).hex()])

print(f'{done} comparisons, {statements} tokens, {bad} differences')
sys.exit(1 if bad else 0)
