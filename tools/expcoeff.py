#!/usr/bin/env python3
"""Find the hints for `checkFun` (`Verif/Tensor/SetupE.lean`), for the conversions between coefficients and amplitudes.

Usage: expcoeff.py /repo/ebcc/codegen OUTPUT.lean MODULE:FUNCTION ...

Nothing here is trusted: the hints are checked.
"""

import os
import sys
from fractions import Fraction
from math import factorial

sys.path.insert(0, os.path.dirname(os.path.abspath(__file__)))
from hints import Canon, Code, add, canon_all, frees, lean_list, scale  # noqa: E402
from claims import run, signed  # noqa: E402


def picks(l):
    if not l:
        return [(1, [], [])]
    r = picks(l[1:])
    return [(s, [l[0]] + p, q) for s, p, q in r] + [(s * (-1) ** len(p), p, [l[0]] + q) for s, p, q in r]


def exp_terms(I, A):
    if not I:
        return [] if A else [(1, [])]
    return [(s * r * c, [([I[0]] + S, B)] + fs)
            for s, S, S2 in picks(I[1:]) for r, B, B2 in picks(A) if len(B) == len(S) + 1
            for c, fs in exp_terms(S2, B2)]


SYM = {
    17: [((0, 1), 1)], 18: signed(2, 2), 19: signed(3, 3),
    20: [((0, 1, 2, 3, 4, 5, 6, 7), 1), ((0, 1, 3, 2, 4, 5, 6, 7), -1), ((0, 1, 2, 3, 4, 5, 7, 6), -1),
         ((0, 1, 3, 2, 4, 5, 7, 6), 1)],
}


def betas(l):
    return sum(1 for i in l if i % 16 >= 4)


def coef_arg(cons, sp):
    f, n = frees(sp), len(sp) // 2
    return sp, [(Fraction(s), tuple((16 + len(S), tuple(S + B)) for S, B in fs)) for s, fs in exp_terms(f[:n], f[n:])
                if not cons or all(betas(S) == betas(B) for S, B in fs)]


def amp_arg(w, sp):
    return sp, [(Fraction(w), ((16 + len(sp) // 2, tuple(frees(sp))),))]


def value(weighted, name):
    head, _, s = name.partition(".")
    n = int(head[1])
    w = Fraction(1)
    if s:
        s = s[:n]
        sp = [0 if c == "a" else 4 for c in s] + [1 if c == "a" else 5 for c in s]
        if weighted:
            w /= factorial(s.count("a")) * factorial(s.count("b"))
    else:
        sp = [0] * n + [1] * n
    return coef_arg(bool(s), sp) if head[0] == "c" else amp_arg(w, sp)


def main():
    code = Code(sys.argv[1])
    out = ["/-!", "Hints for claims of `tools/expcoeff.py`.", "-/", "", "set_option maxRecDepth 100000", "",
           "namespace Ebcc.Hints", ""]
    for item in sys.argv[3:]:
        module, name = item.split(":")
        cn = Canon(SYM)

        def vals(weighted, name):
            sp, raws = value(weighted, name)
            return tuple(sp), canon_all(cn, raws)

        weighted = name.startswith("convert_t")
        res = run(cn, code.get(module, name), lambda s: s, lambda n: vals(weighted, n))
        ok = True
        for key, v in res.items():
            w = vals(False, key)
            ok = ok and v[0] == w[0] and not add(v[1], scale(w[1], Fraction(-1)))
        print(item, ok, len(cn.hints), flush=True)
        if not ok:
            raise SystemExit(1)
        out += [f"def {module}_{name[8:]} : List Nat := " + lean_list(cn.hints), ""]
    out += ["end Ebcc.Hints", ""]
    with open(sys.argv[2], "w") as fh:
        fh.write("\n".join(out))


if __name__ == "__main__":
    main()
