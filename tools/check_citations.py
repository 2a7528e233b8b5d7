#!/usr/bin/env python3
"""Check the citations of the model: every `def`/`structure`/`inductive`/`abbrev` under Verif/Model has a doc
comment, every cited line range exists in /repo, and a name quoted right after a range occurs inside it."""
import os, re, sys, glob
repo = sys.argv[1] if len(sys.argv) > 1 else '/repo'
base = os.path.join(os.path.dirname(os.path.abspath(__file__)), '..', 'lean', 'Verif', 'Model')
bad = n = 0
for f in sorted(glob.glob(base + '/*.lean')):
    t = open(f).read()
    for m in re.finditer(r'^(?:@\[[^\]]*\]\s*)?(?:noncomputable )?(def|structure|inductive|abbrev) (\S+)', t, re.M):
        before = t[:m.start()].rstrip()
        if not before.endswith('-/'):
            print(os.path.basename(f), m.group(2), 'no comment'); bad += 1
            continue
        c = before[before.rindex('/--'):]
        if not re.search(r'src/\w+\.rs:\d+|\.rs|Cargo|Intel|std|core|Rust', c):
            print(os.path.basename(f), m.group(2), 'no source cited:', c[:90].replace('\n', ' '))
    for m in re.finditer(r'((?:blake2_bin/|b2sum/|benches/)?(?:src|tests|build)?/?[\w/]+\.rs):(\d+)(?:-(\d+))?(?:\s+`([A-Za-z_:]+)`)?', t):
        n += 1
        p = f'{repo}/{m.group(1)}'
        if not os.path.exists(p):
            print(os.path.basename(f), m.group(0), 'no such file'); bad += 1; continue
        ls = open(p).read().split('\n')
        a, b = int(m.group(2)), int(m.group(3) or m.group(2))
        if not (1 <= a <= b <= len(ls)):
            print(os.path.basename(f), m.group(0), 'range'); bad += 1; continue
        if m.group(4):
            nm = m.group(4).split('::')[-1]
            if nm not in '\n'.join(ls[a - 1:b]):
                print(os.path.basename(f), m.group(0), 'name not in range'); bad += 1
print(n, 'citations,', bad, 'problems')
