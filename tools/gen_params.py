#!/usr/bin/env python3
"""Copy the limb tables of /repo/poseidon377/src/params/rate_n.rs into lean/Verif/Params/RateN.lean."""
import re, sys, os

REPO = sys.argv[1] if len(sys.argv) > 1 else "/repo"
OUT = os.path.join(os.path.dirname(os.path.abspath(__file__)), "..", "lean", "Verif", "Params")
FIELDS = [  # rust name, lean name, nested
    ("arc", "arc", False), ("mds", "mds", False), ("M_hat", "mHat", False), ("v", "v", False),
    ("w", "w", False), ("M_prime", "mPrime", False), ("M_doubleprime", "mDoublePrime", False),
    ("M_inverse", "mInverse", False), ("M_hat_inverse", "mHatInverse", False), ("M_00", "m00", None),
    ("M_i", "mI", False), ("v_collection", "vCollection", True),
    ("w_hat_collection", "wHatCollection", True), ("optimized_arc", "optimizedArc", False)]
LIMBS = re.compile(r"from_montgomery_limbs\(\[([^\]]*)\]\)")


def limbs(text):
    res = []
    for m in LIMBS.findall(text):
        l = [int(x) for x in m.split(",") if x.strip()]
        assert len(l) == 4 and all(0 <= x < 2 ** 64 for x in l)
        res.append("⟨%d, %d, %d, %d⟩" % tuple(l))
    return res


def lst(els):
    return "[\n  " + ",\n  ".join(els) + "]"


for n in range(1, 8):
    path = "poseidon377/src/params/rate_%d.rs" % n
    src = open(os.path.join(REPO, path)).read()
    start = src.index("    PoseidonParameters {")
    pos = sorted((start + re.search(r"\b%s: " % rust, src[start:]).start(), rust) for rust, _, _ in FIELDS)
    spans = {}
    for k, (p, rust) in enumerate(pos):
        spans[rust] = (p, pos[k + 1][0] if k + 1 < len(pos) else len(src))
    line = lambda p: src.count("\n", 0, p) + 1
    body = src[start:]
    assert "alpha: Alpha::Exponent(17)," in body and "r_P: 31, r_F: 8" in body and "M: 128," in body
    t = n + 1
    assert "PoseidonParameters<%d, %d, %d, %d, 39, %d, %d, 31>" % (t, n, t * t, n * n, t, 39 * t) in src
    out = ["import Verif.Model.Tables", "",
           "/-! Generated by tools/gen_params.py from %s; do not edit. -/" % path, "",
           "namespace Poseidon", ""]
    total = 0
    for rust, lean, nested in FIELDS:
        a, b = spans[rust]
        seg = src[a:b]
        els = limbs(seg)
        total += len(els)
        out.append("/-- `%s`, %s:%d-%d -/" % (rust, path, line(a), line(b) - 1))
        if nested is None:
            out.append("def rate%d_%s : Limbs := %s\n" % (n, lean, els[0]))
        elif nested:
            parts = re.findall(r"new_from_known\(\[((?:[^\[\]]|\[[^\]]*\])*)\]\)", seg)
            groups = [limbs(x) for x in parts]
            assert sum(groups, []) == els and len(groups) == 31
            out.append("def rate%d_%s : List (List Limbs) := [\n  " % (n, lean) +
                       ",\n  ".join("[" + ", ".join(g) + "]" for g in groups) + "]\n")
        else:
            out.append("def rate%d_%s : List Limbs := %s\n" % (n, lean, lst(els)))
    assert total == len(LIMBS.findall(src))
    out.append("/-- The literal tables of `rate_%d()`, %s -/" % (n, path))
    out.append("def rate%dRaw : RawTables :=\n  { " % n +
               ", ".join("%s := rate%d_%s" % (lean, n, lean) for _, lean, _ in FIELDS) + " }\n")
    out.append("theorem rate%dRaw_wf : rate%dRaw.wf %d = true := by decide +kernel\n" % (n, n, t))
    out.append("/-- `rate_%d()`, i.e. `RATE_%d_PARAMS` (poseidon377/src/lib.rs) -/" % (n, n))
    out.append("def rate%dParams : Params Fq %d %d %d %d 39 %d %d 31 := rate%dRaw.toParams rate%dRaw_wf\n"
               % (n, t, n, t * t, n * n, t, 39 * t, n, n))
    out.append("end Poseidon")
    open(os.path.join(OUT, "Rate%d.lean" % n), "w").write("\n".join(out) + "\n")
