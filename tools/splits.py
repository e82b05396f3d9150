#!/usr/bin/env python3
"""Find the hints for `checkSplit` (`Verif/Tensor/Split.lean`).

Usage: splits.py /repo/ebcc/codegen OUTPUT.lean CLAIM ...

A claim `energy_CCSD` is about the functions of the general and of the unrestricted class.  Nothing here is
trusted: the hints are checked.
"""

import itertools
import os
import sys
from fractions import Fraction

sys.path.insert(0, os.path.dirname(os.path.abspath(__file__)))
from claims import AMP, GSYM, LAM, SORTS, DeltaCanon, gvals, lam, run, sign  # noqa: E402
from hints import SPC, Code, add, blk, canon_all, ein, eight, frees, lean_list, scale  # noqa: E402

SSYM = dict(GSYM)
SSYM[3] = eight()
SPIN = {"a": 0, "b": 4}


def sspcs(key, spins):
    out, k = [], 0
    for c in key:
        if c in "bx":
            out.append(SPC[c])
        else:
            out.append(SPC[c] + SPIN[spins[k]])
            k += 1
    return out


FACT = {"aaaa": 2, "bbbb": 2, "aaaaaa": 6, "bbbbbb": 6, "abaaba": 2, "babbab": 2}


def svals(name):
    """`sVals` of `Verif/Tensor/SetupS.lean`"""
    head, *rest = name.split(".")
    if head in AMP:
        t, key = AMP[head]
        sp = sspcs(key, rest[0] if rest else "")
        return sp, [(Fraction(1, FACT.get("".join(rest), 1)), ((16 + t, tuple(frees(sp))),))]
    if head in LAM:
        key, t, ix = LAM[head]
        sp = sspcs(key, rest[0] if rest else "")
        return sp, [(Fraction(1, FACT.get("".join(rest), 1)), ((t, tuple(frees(sp)[i // 16] for i in ix)),))]
    if head == "G":
        return blk(5, [2])
    if head == "w":
        return blk(6, [2, 2])
    return blk({"f": 2, "v": 3, "g": 4}[head], sspcs(rest[1], rest[0]))


def spin(u):
    return u % 16 // 4


def split_fac(t, us):
    """`splitFac`"""
    s = [spin(u) for u in us]
    one = [(1, (t, us))]
    if t == 3:
        p, q, r, w = us
        out = []
        if s[0] == s[2] and s[1] == s[3]:
            out.append((1, (3, (p, r, q, w))))
        if s[0] == s[3] and s[1] == s[2]:
            out.append((-1, (3, (p, w, q, r))))
        return out
    if t in (5, 6) or t >= 16 and t % 16 in (3, 4):
        return one
    if t in (2, 4) or t >= 16 and t % 16 in (0, 5, 6):
        return one if s[-1] == s[-2] else []
    if t >= 16 and t % 16 in (1, 2):
        n = len(s) // 2
        return one if sum(s[:n]) == sum(s[n:]) else []
    raise SystemExit("no rule for tensor %d" % t)


def leaf(coef, fs, mp):
    if not fs:
        return [(coef, ())]
    (t, ix), rest = fs[0], fs[1:]
    l = split_fac(t, tuple(mp[i] for i in ix))
    if not l:
        return []
    r = leaf(coef, rest, mp)
    return [(c * d, (g,) + gs) for c, g in l for d, gs in r]


def split_poly(v, usp):
    raws = []
    for fs, c in v[1].items():
        ds = list(dict.fromkeys(i for _, ix in fs for i in ix if i >= 512))
        mp0 = dict(zip(frees(v[0]), frees(usp)))
        for us in itertools.product(*[(d, d + 4) if d % 16 < 2 else (d,) for d in ds]):
            raws += leaf(c, fs, {**mp0, **dict(zip(ds, us))})
    return raws


def block(name, n, spins):
    """Terms for the spin block of a result with `2 n` fermionic axes, and whether the block is allowed."""
    a, b = spins[:n], spins[n:]
    if sorted(a) != sorted(b):
        return []
    if n == 1 or len(set(a)) == 1:
        return [(1, name + "." + spins, None)]
    if n == 2:
        target = "ab"
    else:
        target = "aba" if a.count("a") == 2 else "bab"

    def arrange(x):
        """the permutation p with x[p[k]] = target[k], one transposition at most"""
        p = list(range(n))
        if x != target:
            if n == 2:
                p = [1, 0]
            else:
                k = x.index(target[1])
                p[k], p[1] = p[1], p[k]
        assert "".join(x[k] for k in p) == target
        return p
    p, q = arrange(a), arrange(b)
    return [(sign(p) * sign(q), name + "." + target * 2, p + [n + k for k in q])]


def rels(method, kind):
    """`splitRels`"""
    if kind == "energy":
        e = "e_mp" if method.startswith("MP") else "e_cc"
        return [(e, (), [(1, e, [])])]
    out = []
    for t in SORTS[method]:
        key = AMP[t][1] if kind == "amps" else LAM[lam(t)][0]
        name = (t if kind == "amps" else lam(t)) + "new"
        nb = key.count("b")
        n = (len(key) - nb) // 2
        if n == 0:
            out.append((name, tuple(sspcs(key, "")), [(1, name, list(range(nb)))]))
            continue
        for spins in map("".join, itertools.product("ab", repeat=2 * n)):
            ts = [(c, u, list(range(nb)) + [nb + k for k in (p or range(2 * n))]) for c, u, p in block(name, n, spins)]
            out.append((name, tuple(sspcs(key, spins)), ts))
    return out


def check(code, method, kind):
    fn = {"energy": "energy", "amps": "update_amps", "lams": "update_lams"}[kind]
    gc, uc = DeltaCanon(GSYM), DeltaCanon(SSYM)

    def table(cn, vals):
        def get(name):
            sp, raws = vals(name)
            return tuple(sp), canon_all(cn, raws)
        return get
    g = run(gc, code.get("G" + method, fn), lambda s: s, table(gc, gvals))
    u = run(uc, code.get("U" + method, fn), lambda s: s, table(uc, svals))
    ok = True
    for name, usp, ts in rels(method, kind):
        assert [s % 4 for s in usp] == list(g[name][0])
        p = canon_all(uc, split_poly(g[name], usp))
        for c, un, perm in ts:
            v = u[un]
            if perm != list(range(len(v[0]))):
                v = ein(uc, [(perm, v)], list(range(len(usp))))
            assert tuple(v[0]) == tuple(usp), (un, v[0], usp)
            p = add(p, scale(v[1], Fraction(-c)))
        if p:
            ok = False
            print("  differs:", name, usp, len(p))
    return ok, gc.hints, uc.hints


for _m, _s in {"MP2": ["t2"], "LCCD": ["t2"], "MP3": ["t2"], "LCCSD": ["t1", "t2"], "QCISD": ["t1", "t2"],
               "CC3": ["t1", "t2", "t3"]}.items():
    SORTS.setdefault(_m, _s)


def main():
    code = Code(sys.argv[1])
    module = os.path.basename(sys.argv[2])[:-5]
    out = ["/-!", "Hints for claims of `tools/splits.py`.", "-/", "", "set_option maxRecDepth 100000", "",
           "namespace Ebcc.Hints", ""]
    for name in sys.argv[3:]:
        kind, method = name.split("_", 1)
        ok, g, u = check(code, method, kind)
        print(module, name, ok, len(g), len(u), flush=True)
        if not ok:
            raise SystemExit(1)
        out += [f"def split_{name}_G : List Nat := " + lean_list(g), "", f"def split_{name}_U : List Nat := " + lean_list(u), ""]
    out += ["end Ebcc.Hints", ""]
    with open(sys.argv[2], "w") as fh:
        fh.write("\n".join(out))


if __name__ == "__main__":
    main()
