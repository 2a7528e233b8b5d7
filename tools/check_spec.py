#!/usr/bin/env python3
"""Compare lean/Verif/Spec.lean with Python's hashlib.blake2s on random parameters and messages.

The official vectors (C43) have no salt, personalization or tree parameters; hashlib takes all of them. BLAKE2sp is
put together from hashlib.blake2s nodes. Lean's kernel
evaluates the specification through Verif/Proofs/Fast.lean. An aid for the reader, not part of any proof. Needs a built lean/ directory.
"""
import hashlib, os, random, subprocess, sys, tempfile

here = os.path.dirname(os.path.abspath(__file__))
rng = random.Random(7693)
N = int(sys.argv[1]) if len(sys.argv) > 1 else 60

def lst(b):
    return "[%s]" % ", ".join("%d" % x for x in b)

def sp(msg):
    leaves = []
    for i in range(8):
        part = b"".join(msg[k:k + 64] for k in range(64 * i, len(msg), 512))
        leaves.append(hashlib.blake2s(part, fanout=8, depth=2, node_offset=i, node_depth=0, inner_size=32,
                                      last_node=i == 7).digest())
    return hashlib.blake2s(b"".join(leaves), fanout=8, depth=2, node_offset=0, node_depth=1, inner_size=32,
                           last_node=True).digest()

want, lean = [], []
for k in range(N):
    msg = rng.randbytes(rng.choice([0, 1, 63, 64, 65, 128, 129, rng.randrange(300)]))
    key = rng.randbytes(rng.choice([0, 0, 1, 32, rng.randrange(33)]))
    salt, person = rng.randbytes(8), rng.randbytes(8)
    p = dict(digest_size=rng.randrange(1, 33), fanout=rng.randrange(256), depth=rng.randrange(1, 256),
             leaf_size=rng.getrandbits(32), node_offset=rng.getrandbits(48), node_depth=rng.randrange(256),
             inner_size=rng.randrange(33), last_node=rng.random() < .5)
    want.append(hashlib.blake2s(msg, key=key, salt=salt, person=person, **p).digest())
    lean.append("Spec.hash { digestLength := %d, keyLength := %d, fanout := %d, maxDepth := %d, leafLength := %d, "
                "nodeOffset := %d, nodeDepth := %d, innerLength := %d, salt := #v%s, personal := #v%s } %s %s %s"
                % (p["digest_size"], len(key), p["fanout"], p["depth"], p["leaf_size"], p["node_offset"],
                   p["node_depth"], p["inner_size"], lst(salt), lst(person), lst(key),
                   "true" if p["last_node"] else "false", lst(msg)))
for n in [0, 1, 64, 65, 511, 512, 513, 1100]:
    msg = rng.randbytes(n)
    want.append(sp(msg))
    lean.append("Spec.Sp.hash 32 [] %s" % lst(msg))

with tempfile.TemporaryDirectory() as d:
    with open(d + "/T.lean", "w") as f:
        f.write("import Verif.Proofs.Fast\nset_option maxRecDepth 100000\n")
        for e, w in zip(lean, want):
            by = ("(Fast.hash_eq 20 _ _ _ _ (by decide +kernel))" if e.startswith("Spec.hash") else
                  "(Fast.spHash_eq 20 _ _ _ (by decide +kernel))")
            f.write("example : %s = %s := %s.trans (by decide +kernel)\n" % (e, lst(w), by))
    r = subprocess.run(["lake", "env", "lean", d + "/T.lean"], cwd=os.path.join(here, "..", "lean"),
                       capture_output=True, text=True)
bad = r.stdout.count("error:")
if r.returncode != 0:
    print(r.stdout[:3000], r.stderr[-2000:])
print("%d cases, %d differences" % (len(want), bad))
sys.exit(r.returncode)
