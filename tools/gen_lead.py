#!/usr/bin/env python3
"""Write lean/Verif/Params/Lead.lean: for each shipped rate and each input word, the leading coefficient of the digest."""
q = 8444461749428370424248824938781546531375899335154063827935233455917409239041
flags = [1] * 4 + [0] * 31 + [1] * 4
rows = []
for t in range(2, 9):
    M = [[pow(i + j + t, -1, q) for j in range(t)] for i in range(t)]
    row = []
    for j in range(t):
        L = [int(a == j) for a in range(t)]
        for f in flags:
            y = [pow(L[a], 17, q) if f or a == 0 else 0 for a in range(t)]
            L = [sum(M[i][k] * y[k] for k in range(t)) % q for i in range(t)]
        row.append(L[1])
    rows.append(row)
out = '''/-!
# Leading coefficients of the digest

Generated by `tools/gen_lead.py`.  Entry `j` of row `i` is claimed to be the coefficient at `17^39` of the digest of rate `i + 1` as a
polynomial in input word `j`; `Props/Separation.lean` proves it (`lead_value`).
-/

namespace Poseidon

def leadTable : List (List Nat) :=
  [''' + ",\n   ".join("[" + ",\n    ".join(str(x) for x in r) + "]" for r in rows) + ''']

end Poseidon
'''
open('/verif/lean/Verif/Params/Lead.lean', 'w').write(out)
