#!/usr/bin/env python3
"""Write the official test vectors of BLAKE2s and BLAKE2sp (/repo/tests/blake2-kat.json) as Lean tables,
and the modules that evaluate the specification on them."""
import json, os

cases = json.load(open('/repo/tests/blake2-kat.json'))
out = os.path.join(os.path.dirname(os.path.abspath(__file__)), '..', 'lean', 'Verif', 'Vectors')
tables = {}
key = bytes(range(32)).hex()
for hash_, k, name in (('blake2s', '', 'plainS'), ('blake2s', key, 'keyedS'),
                       ('blake2sp', '', 'plainSp'), ('blake2sp', key, 'keyedSp')):
    t = [c for c in cases if c['hash'] == hash_ and c['key'] == k]
    assert len(t) == 256
    for n, c in enumerate(t):
        assert c['in'] == bytes(range(n)).hex() and len(c['out']) == 64
    tables[name] = [c['out'] for c in t]
for hash_ in ('blake2s', 'blake2sp'):  # the order of `kat` in Props/VectorTests.lean
    t = [c for c in cases if c['hash'] == hash_]
    assert [(c['in'], c['key']) for c in t] == [(bytes(range(n)).hex(), k) for k in ('', key) for n in range(256)]
what = {'plainS': 'BLAKE2s, no key', 'keyedS': 'BLAKE2s, key 00 01 … 1f',
        'plainSp': 'BLAKE2sp, no key', 'keyedSp': 'BLAKE2sp, key 00 01 … 1f'}
with open(out + '/Data.lean', 'w') as f:
    f.write('''import Verif.Spec
/-!
# The official test vectors (tests/blake2-kat.json), written by tools/gen_vectors.py

Entry `n` of each table is the digest of the `n` bytes 00 01 02 …, as a hexadecimal number.
-/

namespace Vectors

/-- The bytes 0, 1, …, `n - 1`. -/
def ramp (n : Nat) : List Spec.Byte := (List.range n).map (BitVec.ofNat 8)

/-- The `k` lowest bytes of a number, most significant byte first. -/
def bytesBE : Nat → Nat → List Spec.Byte
  | 0, _ => []
  | k + 1, n => bytesBE k (n / 256) ++ [BitVec.ofNat 8 n]
''')
    for name, t in tables.items():
        f.write(f'\n/-- {what[name]}. -/\ndef {name} : List Nat := [\n')
        f.write(',\n'.join('  0x' + v for v in t))
        f.write(']\n')
    f.write('\nend Vectors\n')
for name in tables:
    with open(f'{out}/{name[0].upper() + name[1:]}.lean', 'w') as f:
        f.write(f'''import Verif.Vectors.Data
import Verif.Proofs.VectorEval
/-!
# Evaluation of the specification: {what[name]}
-/

namespace Vectors
''')
        for lo in range(0, 256, 32):
            f.write(f'''
theorem {name}_{lo} : Fast.agrees Fast.{name} {lo} (({name}.drop {lo}).take 32) = true := by decide +kernel
''')
        f.write(f'''
theorem {name}_length : {name}.length = 256 := by decide +kernel

theorem {name}_table {{n : Nat}} (h : n < 256) : Fast.{name} n = {name}.getD n 0 := by
  have hl := {name}_length
''')
        f.write('  have cut : ' + ' ∨ '.join(f'{lo} ≤ n ∧ n < {lo} + 32' for lo in range(0, 256, 32)) + ' := by omega\n')
        f.write('  rcases cut with ' + ' | '.join(['⟨a, b⟩'] * 8) + '\n')
        for lo in range(0, 256, 32):
            f.write(f'  · exact Fast.agrees_part {name}_{lo} (by omega) a b\n')
        f.write('\nend Vectors\n')
