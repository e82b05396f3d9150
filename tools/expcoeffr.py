#!/usr/bin/env python3
"""Find the hints for `checkFun` with the arguments of `Verif/Tensor/SetupRes.lean`, for the restricted conversions
between coefficients and amplitudes.

Usage: expcoeffr.py /repo/ebcc/codegen OUTPUT.lean

Nothing here is trusted: the hints are checked.
"""

import itertools
import os
import sys
from fractions import Fraction

sys.path.insert(0, os.path.dirname(os.path.abspath(__file__)))
from hints import Canon, Code, add, canon_all, frees, lean_list, scale  # noqa: E402
from claims import run  # noqa: E402
from expcoeff import betas, exp_terms  # noqa: E402

PATTERN = {17: "a", 18: "ab", 19: "aba", 20: "abab", 21: "abaa"}
TENSOR = {"1": 17, "2": 18, "3": 19, "4": 20, "4a": 21}


def both(n, l):
    return [(a + tuple(n + k for k in b), s * t) for a, s in l for b, t in l]


SYM4 = both(4, [((0, 1, 2, 3), 1), ((2, 1, 0, 3), -1), ((0, 3, 2, 1), -1), ((2, 3, 0, 1), 1)])
SYM = {
    17: [((0, 1), 1)],
    18: [((0, 1, 2, 3), 1), ((1, 0, 3, 2), 1)],
    19: both(3, [((0, 1, 2), 1), ((2, 1, 0), -1)]),
    20: SYM4 + [(tuple((1, 0, 3, 2, 5, 4, 7, 6)[k] for k in p), s) for p, s in SYM4],
    21: both(4, [((0, 1, 2, 3), 1), ((0, 1, 3, 2), -1), ((2, 1, 0, 3), -1), ((2, 1, 3, 0), 1), ((3, 1, 0, 2), 1),
                 ((3, 1, 2, 0), -1)]),
}


def unspin(i):
    return i - 4 if i % 16 >= 4 else i


def sign_sort(l):
    return (-1) ** sum(1 for i in range(len(l)) for j in range(i) if l[j] > l[i])


def rearrange(s, l):
    l, m = list(l), []
    for c in s:
        k = next((k for k, x in enumerate(l) if (x % 16 >= 4) == (c != "a")), None)
        if k is None:
            return None
        m.append(l.pop(k))
    return None if l else (m, sign_sort(m))


def direct(S, B):
    for t, p in PATTERN.items():
        for s in (p, p.translate(str.maketrans("ab", "ba"))):
            x, y = rearrange(s, S), rearrange(s, B)
            if x and y:
                sign = sign_sort(S) * x[1] * sign_sort(B) * y[1]
                return sign, (t, tuple(map(unspin, x[0] + y[0])))
    return None


def fac(pos, S, B):
    x = direct(S, B)
    if x:
        return [x]
    S, B = list(map(unspin, S)), list(map(unspin, B))
    S[min(pos, len(S) - 1)] += 4
    return [direct(S, B[:k] + [B[k] + 4] + B[k + 1:]) for k in range(len(B))]


def value(pos, name):
    t = TENSOR[name[1:]]
    p = PATTERN[t]
    n = len(p)
    sp = [0] * n + [1] * n
    if name[0] == "t":
        return sp, [(Fraction(1), ((t, tuple(frees(sp))),))]
    f = frees([4 * (c == "b") for c in p] + [1 + 4 * (c == "b") for c in p])
    out = []
    for c, fs in exp_terms(f[:n], f[n:]):
        if all(betas(S) == betas(B) for S, B in fs):
            for combo in itertools.product(*[fac(pos, S, B) for S, B in fs]):
                w = c
                for s, _ in combo:
                    w *= s
                out.append((Fraction(w), tuple(x for _, x in combo)))
    return sp, out


def main():
    code = Code(sys.argv[1])
    out = ["/-!", "Hints for claims of `tools/expcoeffr.py`.", "-/", "", "set_option maxRecDepth 100000", "",
           "namespace Ebcc.Hints", ""]
    for n in "1234":
        for name in (f"c{n}_to_t{n}", f"t{n}_to_c{n}"):
            cn = Canon(SYM)
            pos = 2 if name[0] == "c" else 1

            def vals(name):
                sp, raws = value(pos, name)
                return tuple(sp), canon_all(cn, raws)

            res = run(cn, code.get("RecCC", "convert_" + name), lambda s: s, vals)
            ok = True
            for key, v in res.items():
                w = vals(key)
                ok = ok and v[0] == w[0] and not add(v[1], scale(w[1], Fraction(-1)))
            print(name, ok, len(cn.hints), flush=True)
            if not ok:
                raise SystemExit(1)
            out += [f"def RecCC_{name} : List Nat := " + lean_list(cn.hints), ""]
    out += ["end Ebcc.Hints", ""]
    with open(sys.argv[2], "w") as fh:
        fh.write("\n".join(out))


if __name__ == "__main__":
    main()
