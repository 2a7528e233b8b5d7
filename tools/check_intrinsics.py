#!/usr/bin/env python3
"""Compare the intrinsics of lean/Verif/Model/X86.lean with the CPU of this machine.

Writes a C program that runs every intrinsic (with all 256 values of each immediate) on random registers,
and evaluates the Lean definitions on the same registers. Nothing of /repo is built or run. An aid for the
reader, not part of any proof. Needs gcc, a CPU with AVX2, and a built lean/ directory.
"""
import os, random, subprocess, sys, tempfile

here = os.path.dirname(os.path.abspath(__file__))
lean_dir = os.path.join(here, "..", "lean")
rng = random.Random(20181)
N = int(sys.argv[1]) if len(sys.argv) > 1 else 4

# name, register width, number of registers, values of the immediate (None: no immediate)
REG = [
    ("mm_xor_si128", 128, 2, None), ("mm256_xor_si256", 256, 2, None), ("mm256_or_si256", 256, 2, None),
    ("mm_add_epi32", 128, 2, None), ("mm256_add_epi32", 256, 2, None),
    ("mm_srli_epi32", 128, 1, range(0, 34)), ("mm_slli_epi32", 128, 1, range(0, 34)),
    ("mm256_srli_epi32", 256, 1, range(0, 34)), ("mm256_slli_epi32", 256, 1, range(0, 34)),
    ("mm_shuffle_epi8", 128, 2, None), ("mm256_shuffle_epi8", 256, 2, None),
    ("mm_shuffle_epi32", 128, 1, range(256)), ("mm_shuffle_ps", 128, 2, range(256)),
    ("mm_shufflehi_epi16", 128, 1, range(256)), ("mm_blend_epi16", 128, 2, range(256)),
    ("mm_slli_si128", 128, 1, range(0, 18)), ("mm_srli_si128", 128, 1, range(0, 18)),
    ("mm_unpacklo_epi32", 128, 2, None), ("mm_unpackhi_epi32", 128, 2, None),
    ("mm_unpacklo_epi64", 128, 2, None), ("mm_unpackhi_epi64", 128, 2, None),
    ("mm256_unpacklo_epi32", 256, 2, None), ("mm256_unpackhi_epi32", 256, 2, None),
    ("mm256_unpacklo_epi64", 256, 2, None), ("mm256_unpackhi_epi64", 256, 2, None),
    ("mm256_permute2x128_si256", 256, 2, range(256)),
]
# intrinsics that build a register from scalars: name, width, bits of a scalar, number of scalars
SET = [
    ("mm_setr_epi32", 128, 32, 4), ("mm_set1_epi32", 128, 32, 1), ("mm256_set1_epi32", 256, 32, 1),
    ("mm256_set_epi32", 256, 32, 8), ("mm_set_epi8", 128, 8, 16), ("mm256_set_epi8", 256, 8, 32),
]
# loads, stores and transmutations between memory and registers: name, width, bits of an element, load?
MEM = [
    ("mm_loadu_bytes", 128, 8, True), ("mm_loadu_words", 128, 32, True),
    ("mm256_loadu_bytes", 256, 8, True), ("mm256_of_words", 256, 32, True),
    ("mm_storeu_words", 128, 32, False), ("mm_storeu_bytes", 128, 8, False),
    ("mm256_to_words", 256, 32, False), ("mm256_to_bytes", 256, 8, False),
]

def rand(w):
    return rng.getrandbits(w)

def creg(w, x):
    b = x.to_bytes(w // 8, "little")
    return "(const unsigned char[]){%s}" % ",".join(map(str, b))

def load(w, x):
    f = "_mm_loadu_si128((const __m128i*)" if w == 128 else "_mm256_loadu_si256((const __m256i*)"
    return f + creg(w, x) + ")"

c, lean = [], []

def out(w, e):
    if w == 128:
        c.append("{unsigned char o[16]; _mm_storeu_si128((__m128i*)o, %s); show(o, 16);}" % e)
    else:
        c.append("{unsigned char o[32]; _mm256_storeu_si256((__m256i*)o, %s); show(o, 32);}" % e)

for name, w, k, imms in REG:
    for imm in ([None] if imms is None else imms):
        for _ in range(N * (25 if imms is None else 1)):
            xs = [rand(w) for _ in range(k)]
            args = [load(w, x) for x in xs]
            largs = ["%d#%d" % (x, w) for x in xs]
            if imm is not None:
                args.append(str(imm))
                largs.append(str(imm))
            if name == "mm_shuffle_ps":
                e = "_mm_castps_si128(_mm_shuffle_ps(_mm_castsi128_ps(%s),_mm_castsi128_ps(%s),%s))" % tuple(args)
            else:
                e = "_%s(%s)" % (name, ",".join(args))
            out(w, e)
            lean.append("(%s %s).toNat" % (name, " ".join(largs)))
for name, w, b, k in SET:
    for _ in range(25 * N):
        xs = [rand(b) for _ in range(k)]
        cast = "(char)" if b == 8 else "(int)"
        out(w, "_%s(%s)" % (name, ",".join("%s%dU" % (cast, x) for x in xs)))
        la = ["%d#%d" % (x, b) for x in xs]
        lean.append("(%s %s).toNat" % (name, "#v[%s]" % ", ".join(la) if b == 8 else " ".join(la)))
for name, w, b, is_load in MEM:
    for _ in range(25 * N):
        k = w // b
        xs = [rand(b) for _ in range(k)]
        ty = "unsigned char" if b == 8 else "unsigned int"
        arr = "(const %s[]){%s}" % (ty, ",".join("%dU" % x for x in xs))
        ptr = "__m128i" if w == 128 else "__m256i"
        ld = "_mm_loadu_si128" if w == 128 else "_mm256_loadu_si256"
        la = ["%d#%d" % (x, b) for x in xs]
        if is_load:
            # lane order is observed by shifting the register, not by storing it again
            c.append("{%s r = %s((const %s*)%s); unsigned char o[%d];" % (ptr, ld, ptr, arr, w // 8))
            for i in range(w // 8):
                ext = ("_mm_extract_epi8(r, %d)" if w == 128 else "_mm256_extract_epi8(r, %d)") % i
                c.append("o[%d] = (unsigned char)%s;" % (i, ext))
            c.append("show(o, %d);}" % (w // 8))
            if name == "mm_loadu_words":
                lean.append("(%s %s).toNat" % (name, " ".join(la)))
            else:
                lean.append("(%s #v[%s]).toNat" % (name, ", ".join(la)))
        else:
            x = rand(w)
            # the register is built without reading memory, then stored and read element by element
            bs = list(reversed(x.to_bytes(w // 8, "little")))
            mk = ("_mm_set_epi8" if w == 128 else "_mm256_set_epi8") + "(%s)" % ",".join("(char)%d" % y for y in bs)
            st = "_mm_storeu_si128" if w == 128 else "_mm256_storeu_si256"
            c.append("{%s o[%d]; %s((%s*)o, %s); for (int i = %d; i >= 0; i--) printf(\"%%0%dx\", o[i]); puts(\"\");}"
                     % (ty, k, st, ptr, mk, k - 1, b // 4))
            lean.append("((%s (%d#%d)).toList.foldr (fun (y : BitVec %d) n => n * 2 ^ %d + y.toNat) 0)" % (name, x, w, b, b))

# gcc needs small functions
chunk, pieces, cur, depth = 200, [], [], 0
for line in c:
    cur.append(line)
    depth += line.count("{") - line.count("}")
    if depth == 0 and len(cur) >= chunk:
        pieces.append(cur)
        cur = []
if cur:
    pieces.append(cur)
src = "#include <immintrin.h>\n#include <stdio.h>\n"
src += "static void show(const unsigned char *o, int n) { for (int i = n - 1; i >= 0; i--) printf(\"%02x\", o[i]); puts(\"\"); }\n"
for i, p in enumerate(pieces):
    src += "static void f%d(void) {\n%s\n}\n" % (i, "\n".join(p))
src += "int main(void) {\n%s\nreturn 0;\n}\n" % "\n".join("f%d();" % i for i in range(len(pieces)))

with tempfile.TemporaryDirectory() as d:
    cf, ex, lf = d + "/t.c", d + "/t", d + "/T.lean"
    open(cf, "w").write(src)
    subprocess.run(["gcc", "-O0", "-mavx2", "-o", ex, cf], check=True)
    cpu = [int(x, 16) for x in subprocess.run([ex], check=True, capture_output=True, text=True).stdout.split()]
    with open(lf, "w") as f:
        f.write("import Verif.Model.X86\nopen Blake2s.X86\n")
        for i in range(0, len(lean), 50):
            f.write("#eval do\n" + "".join("  IO.println s!\"{(%s : Nat)}\"\n" % e for e in lean[i:i + 50]))
    r = subprocess.run(["lake", "env", "lean", lf], cwd=lean_dir, capture_output=True, text=True)
    if r.returncode != 0:
        print(r.stdout[-3000:], r.stderr[-3000:])
        sys.exit(1)
    model = [int(x) for x in r.stdout.split()]
assert len(cpu) == len(model) == len(lean), (len(cpu), len(model), len(lean))
bad = [(lean[i], hex(cpu[i]), hex(model[i])) for i in range(len(cpu)) if cpu[i] != model[i]]
for b in bad[:10]:
    print("DIFFERS", *b)
print("%d intrinsics, %d cases, %d differences" % (len(REG) + len(SET) + len(MEM), len(cpu), len(bad)))
sys.exit(1 if bad else 0)
