#!/usr/bin/env python3
"""Compare the straight-line vector code of /repo/src with its transcription in the model, token by token.

Covers: SIGMA and IV; the ten rounds of sse41.rs `compress`; `round_4` (sse41.rs); `blake2s_round_8x`
(avx2.rs); `transpose_vecs` of both; the byte shuffles of the rotations; portable.rs `round`.
Run by hand: python3 tools/check_transcription.py [/repo]. Nothing depends on it."""
import os, re, sys

repo = sys.argv[1] if len(sys.argv) > 1 else '/repo'
model = os.path.join(os.path.dirname(os.path.abspath(__file__)), '..', 'lean', 'Verif', 'Model')
rust = {n: open(f'{repo}/src/{n}.rs').read() for n in ['lib', 'sse41', 'avx2', 'portable']}
lean = {n: open(f'{model}/{n}.lean').read() for n in ['Prelude', 'Sse41', 'Avx2', 'Portable']}
bad = 0


def check(what, a, b):
    global bad
    if not a or a != b:
        bad += 1
        print('DIFFERS', what)
        for x, y in zip(a, b):
            if x != y:
                print('   source', x, '| model', y)
                break
        print('   lengths', len(a), len(b))
    else:
        print('same', what, len(a))


def rust_fn(src, name):
    i = re.search(r'fn ' + name + r'\b', rust[src]).start()
    i = rust[src].index('{', rust[src].index(')', i) if '->' not in rust[src][i:i + 400] else i)
    depth, j = 0, i
    while True:
        if rust[src][j] == '{': depth += 1
        if rust[src][j] == '}': depth -= 1
        j += 1
        if depth == 0: break
    return re.sub(r'//.*', '', rust[src][i + 1:j - 1])


def lean_def(src, name):
    m = re.search(r'^def ' + name + r'\b.*?(?=^/--|^def |^end |\Z)', lean[src], re.M | re.S)
    return m.group(0)


def nums(s):
    return [int(x, 0) for x in re.findall(r'0x[0-9a-fA-F]+|\d+', s.replace('_', ''))]


# constants
for name in ['IV', 'SIGMA']:
    a = re.search(r'const ' + name + r'\b[^=]*=(.*?);', rust['lib'], re.S).group(1)
    b = lean_def('Prelude', name)
    b = b[b.index(':=') + 2:]
    b = re.sub(r': Vector.*', '', b)
    check(name, nums(a), nums(re.sub(r'--.*', '', b)))

# sse41 compress, rounds
body = re.sub(r'\s+', ' ', rust['sse41'][rust['sse41'].index('// round 1\n'):rust['sse41'].index('storeu(&mut h[0]')])
parts = re.split(r'// round \d+ ', body)[1:]
assert len(parts) == 10, len(parts)


def toks(s):
    s = re.sub(r'_mm_castps_si128|_mm_castsi128_ps', '', s)
    s = re.sub(r'\b_mm_', 'mm_', s).replace('_MM_SHUFFLE!', 'MM_SHUFFLE')
    s = re.sub(r'(un)?diagonalize\(row2, row3, row4\)', lambda m: (m.group(1) or '') + 'diagonalize row', s)
    s = re.sub(r'(g[12])\(row1, row2, row3, row4,', r'\1 row', s)
    return re.findall(r'0x[0-9A-Fa-f]+|\w+', s)


for n, p in enumerate(parts, 1):
    a = []
    for st in p.split(';'):
        t = toks(st)
        if not t or t[0] == 'storeu': continue
        a.append(t[1:] if t[0] == 'let' else ['row'] + t)
    b = []
    for l in lean_def('Sse41', f'round{n}').split('\n')[1:]:
        m = re.match(r'\s*let (.*)', l)
        if m: b.append(re.findall(r'0x[0-9A-Fa-f]+|\w+', m.group(1)))
    norm = lambda ts: [[str(int(x, 16)) if x.startswith('0x') else x for x in t] for t in ts]
    check(f'sse41 round {n}', norm(a), norm(b))


# the transposed rounds
def rust_round(src, name):
    out = []
    for st in rust_fn(src, name).split(';'):
        st = st.strip()
        if not st: continue
        st = re.sub(r'm\[SIGMA\[r\]\[(\d+)\] as usize\]', r's \1', st)
        st = re.sub(r'v\[(\d+)\]', r'v\1', st)
        out.append(re.findall(r'\w+', st))
    return out


def lean_round(src, names, ty):
    out = []
    for n in names:
        for l in lean_def(src, n).split('\n'):
            m = re.match(r'\s*let (v\d+) : ' + ty + r' := (.*)', l)
            if m and not re.match(r'v\[', m.group(2)):
                out.append(re.findall(r'\w+', m.group(1) + ' ' + m.group(2)))
    return out


check('sse41 round_4', rust_round('sse41', 'round_4'),
      lean_round('Sse41', ['round_4_columns', 'round_4_diagonals'], 'M128'))
check('avx2 blake2s_round_8x', rust_round('avx2', 'blake2s_round_8x'),
      lean_round('Avx2', ['blake2sRound8x_columns', 'blake2sRound8x_diagonals'], 'M256'))

# rotations by byte shuffle
for src, mod in [('sse41', 'Sse41'), ('avx2', 'Avx2')]:
    for r in ['rot7', 'rot8', 'rot12', 'rot16']:
        a = re.sub(r'_mm\d*_\w+', '', rust_fn(src, r))
        b = lean_def(mod, r)
        b = re.sub(r'mm\d*_\w+', '', b[b.index(':=') + 2:])
        check(f'{src} {r}', nums(a), nums(b))

# transposes
for src, mod, name, lname in [('sse41', 'Sse41', 'transpose_vecs', 'transposeVecs'),
                              ('avx2', 'Avx2', 'transpose_vecs', 'transposeVecs')]:
    f = lambda s: [re.findall(r'\w+', re.sub(r'\b_mm', 'mm', x)) for x in s]
    a = [x.strip()[4:] for x in rust_fn(src, name).split(';') if x.strip().startswith('let ')]
    b = [re.match(r'\s*let (.*)', l).group(1) for l in lean_def(mod, lname).split('\n') if re.match(r'\s*let ', l)]
    b = [re.sub(r' : M\d+| : M256 × M256', '', x) for x in b]
    check(f'{src} {name}', f(a), f(b))

# portable round
a = [re.findall(r'\w+', st.replace('as usize', '')) for st in rust_fn('portable', 'round').split(';') if 'g(v' in st]
b = [re.findall(r'\w+', l.split(':=')[1]) for l in lean_def('Portable', 'round').split('\n') if ':= g v' in l]
check('portable round', a, b)
sys.exit(1 if bad else 0)
