#!/usr/bin/env python3
"""Find the hints of `Verif/Tensor/Engine.lean` for claims about generated functions.

Usage: hints.py /repo/ebcc/codegen OUTPUT.lean CLAIM ...

Follows the functions in the same way as `checkPair` and `checkOne`, searches the canonical form of
every monomial, and writes the hints as a Lean list.  Nothing here is trusted: the hints are checked.
"""

import ast
import os
import sys
from fractions import Fraction

sys.path.insert(0, os.path.dirname(os.path.abspath(__file__)))
import gencode  # noqa: E402

SPC = {"o": 0, "v": 1, "b": 2, "x": 3}


# --- Symmetries of the tensors, `Verif/Tensor/Setup.lean`


def eight():
    return [((0, 1, 2, 3), 1), ((1, 0, 2, 3), 1), ((0, 1, 3, 2), 1), ((1, 0, 3, 2), 1),
            ((2, 3, 0, 1), 1), ((3, 2, 0, 1), 1), ((2, 3, 1, 0), 1), ((3, 2, 1, 0), 1)]


PAIR = [((0, 1, 2, 3), 1), ((1, 0, 3, 2), 1)]
SYM = {
    0: [((0, 1), 1)],
    1: PAIR,
    2: [((0, 1), 1), ((1, 0), 1)],
    3: eight(),
    4: [((0, 1, 2), 1), ((0, 2, 1), 1)],
    5: [((0, 1), 1)],
    6: PAIR,
}
# `Verif/Tensor/SetupB.lean`
BOS = {"g": (7, "bxy"), "G": (8, "b"), "w": (9, "bb"), "s1": (10, "b"), "s2": (11, "bb"), "u11": (12, "bov"),
       "u12": (13, "bbov"), "ls1": (14, "b"), "ls2": (16, "bb"), "lu11": (17, "bvo"), "lu12": (18, "bbvo")}
for num, spaces in BOS.values():
    SYM[num] = [(tuple(range(len(spaces))), 1)]
    if spaces.startswith("bb"):
        SYM[num].append(((1, 0) + tuple(range(2, len(spaces))), 1))


# --- Canonical form


class Canon:
    def __init__(self, sym):
        self.sym = sym
        self.hints = []
        self.cache = {}

    def search(self, fs):
        """The hints, and the canonical factors with sign (None if zero)."""
        states = [((), tuple(range(len(fs))), (), 0, 1)]  # digits, rest, map, count, sign
        out = []
        for t in sorted(f[0] for f in fs):
            best, new = None, {}
            for digits, rest, mp, cnt, sgn in states:
                for k in rest:
                    if fs[k][0] != t:
                        continue
                    for j, (perm, s) in enumerate(self.sym[t]):
                        m, c, code = dict(mp), cnt, []
                        for q in perm:
                            i = fs[k][1][q]
                            if i >= 512:
                                if i not in m:
                                    m[i] = (32 + c) * 16 + i % 16
                                    c += 1
                                i = m[i]
                            code.append(i)
                        code = tuple(code)
                        if best is not None and code > best:
                            continue
                        if best is None or code < best:
                            best, new = code, {}
                        key = (tuple(x for x in rest if x != k), tuple(sorted(m.items())), sgn * s)
                        if key not in new:
                            new[key] = (digits + (64 * k + j,), key[0], tuple(m.items()), c, sgn * s)
            states = list(new.values())
            out.append((t, best))
        first = states[0]
        other = next((x for x in states if x[4] != first[4]), None)

        def hint(x):
            return sum(d << (10 * k) for k, d in enumerate(x[0])) + 1

        if other is not None:
            return [0, hint(first), hint(other)], None, 0
        return [hint(first)], tuple(out), first[4]

    def __call__(self, fs):
        # the search depends on the summed indices only through their first occurrences
        ren = {}
        key = []
        for t, is_ in fs:
            row = []
            for i in is_:
                if i >= 512:
                    i = ren.setdefault(i, (32 + len(ren)) * 16 + i % 16)
                row.append(i)
            key.append((t, tuple(row)))
        key = tuple(key)
        if key not in self.cache:
            self.cache[key] = self.search(key)
        hs, canon, sgn = self.cache[key]
        self.hints += hs
        return canon, sgn


def insert(poly, fs, coef):
    if fs in poly:
        c = poly[fs] + coef
        if c == 0:
            del poly[fs]
        else:
            poly[fs] = c
    elif coef != 0:
        poly[fs] = coef


def canon_all(cn, raws):
    poly = {}
    for coef, fs in raws:
        canon, sgn = cn(fs)
        if canon is not None:
            insert(poly, canon, sgn * coef)
    return poly


def subst(li, off, i):
    return i + 16 * off if i >= 512 else li[i // 16]


def prods(args, off):
    if not args:
        return [(Fraction(1), ())]
    li, p = args[0]
    out = []
    for c, fs in prods(args[1:], off + 64):
        for gs, d in p.items():
            out.append((d * c, tuple((t, tuple(subst(li, off, i) for i in is_)) for t, is_ in gs) + fs))
    return out


def ein(cn, vs, out):
    tbl = {}
    for ls, v in vs:
        assert len(ls) == len(v[0]), (ls, v[0])
        for l, s in zip(ls, v[0]):
            assert tbl.setdefault(l, s) == s, "spaces differ"
    osp = tuple(tbl[l] for l in out)
    ix = {l: 16 * out.index(l) + s if l in out else 16 * (64 + l) + s for l, s in tbl.items()}
    args = [([ix[l] for l in ls], v[1]) for ls, v in vs]
    return osp, canon_all(cn, prods(args, 128))


def scale(p, c):
    return {fs: c * d for fs, d in p.items()}


def add(p, q):
    p = dict(p)
    for fs, c in q.items():
        insert(p, fs, c)
    return p


# --- Functions


class Code:
    def __init__(self, root):
        self.root = root
        self.modules = {}

    def get(self, module, name):
        if module not in self.modules:
            text = open(os.path.join(self.root, module + ".py")).read()
            defs = {d.name: d for d in ast.parse(text).body if isinstance(d, ast.FunctionDef)}
            self.modules[module] = (defs, text.split("\n"))
        defs, source = self.modules[module]
        name, only = gencode.results(name)
        return gencode.Function(defs[name], source, only)


def arg(cn, a):
    sp, raws = a
    return tuple(sp), canon_all(cn, raws)


def run(cn, fn, rho, vals):
    env = {name: vals(cn, name) for name in fn.used}
    for line, stmt in fn.stmts:
        kind, x = stmt[0], stmt[1]
        if kind == "del":
            del env[x]
        elif kind == "zeros":
            env[x] = (tuple(rho(s) for s in stmt[2]), {})
        else:
            e, coef = stmt[2], stmt[3]
            if e[0] == "cp":
                v = env[e[1]]
            elif e[0] == "tr":
                w = env[e[1]]
                v = ein(cn, [(list(range(len(w[0]))), w)], list(e[2]))
            else:
                v = ein(cn, [(ls, env[n]) for n, ls in e[1]], e[2])
            v = (v[0], scale(v[1], coef))
            if kind == "add":
                assert v[0] == env[x][0], (line, x)
                v = (v[0], add(env[x][1], v[1]))
            env[x] = v
    return {key: env[name] for key, name in fn.ret}


def check_rels(cn, r, u, rels):
    ok = True
    for sp, terms in rels:
        p = {}
        for coef, second, name, perm in terms:
            v = (u if second else r)[name]
            if list(perm) != list(range(len(v[0]))):
                v = ein(cn, [(list(perm), v)], list(range(len(sp))))
            assert tuple(v[0]) == tuple(sp), (name, v[0], sp)
            p = add(p, scale(v[1], Fraction(coef)))
        if p:
            print("relation fails:", sp, terms, len(p))
            ok = False
    return ok


# --- Arguments, `Verif/Tensor/Setup.lean`


def frees(sp):
    return [16 * k + s for k, s in enumerate(sp)]


def blk(t, sp):
    return sp, [(Fraction(1), ((t, tuple(frees(sp))),))]


def spcs(s):
    return [SPC[c] for c in s]


def anti(t, sp):
    """`(t - t with the last two axes exchanged) / 2`"""
    f = frees(sp)
    return sp, [(Fraction(1, 2), ((t, tuple(f)),)), (Fraction(-1, 2), ((t, (f[0], f[1], f[3], f[2])),))]


def base(table):
    return lambda cn, name: arg(cn, table(name))


def rvals(name):
    if name == "t1":
        return blk(0, spcs("ov"))
    if name == "t2":
        return blk(1, spcs("oovv"))
    if name == "l1":
        return blk(5, spcs("vo"))
    if name == "l2":
        return blk(6, spcs("vvoo"))
    head, key = name.split(".")
    return blk({"f": 2, "v": 3}[head], spcs(key))


def uvals(name):
    head, spin, *key = name.split(".")
    if head == "t1":
        return blk(0, spcs("ov"))
    if head == "t2":
        return blk(1, spcs("oovv")) if spin == "abab" else anti(1, spcs("oovv"))
    if head == "l1":
        return blk(5, spcs("vo"))
    if head == "l2":
        return blk(6, spcs("vvoo")) if spin == "abab" else anti(6, spcs("vvoo"))
    return blk({"f": 2, "v": 3}[head], spcs(key[0]))


def dfblk(sp):
    f = frees(sp)
    x = 512 + 3
    return sp, [(Fraction(1), ((4, (x, f[0], f[1])), (4, (x, f[2], f[3]))))]


def rbvals(name):
    """Integrals from the three-centre integrals."""
    if name.startswith("v."):
        return dfblk(spcs(name[2:]))
    return rvals(name)


def dfvals(name):
    if name.startswith("v."):
        return blk(4, spcs(name[2:]))
    return rvals(name)


def ident(names, sp):
    """Equal results with the names."""
    return [(sp(n), [(1, False, n, range(len(sp(n)))), (-1, True, n, range(len(sp(n))))]) for n in names]


def mod4(s):
    return s % 4


E0 = [((), [(1, False, "e_cc", ()), (-1, True, "e_cc", ())])]
OV, OOVV = (0, 1), (0, 0, 1, 1)
VO, VVOO = (1, 0), (1, 1, 0, 0)


def same(n1, n2, sp):
    return (sp, [(1, False, n1, range(len(sp))), (-1, True, n2, range(len(sp)))])


def antis(n1, n2, sp):
    return (sp, [(1, False, n1, (0, 1, 2, 3)), (-1, False, n1, (0, 1, 3, 2)), (-1, True, n2, (0, 1, 2, 3))])


def amps_rels(singles):
    rels = []
    if singles:
        rels += [same("t1new", "t1new.aa", OV), same("t1new", "t1new.bb", OV)]
    rels += [same("t2new", "t2new.abab", OOVV), antis("t2new", "t2new.aaaa", OOVV),
             antis("t2new", "t2new.bbbb", OOVV),
             (OOVV, [(1, False, "t2new", (0, 1, 2, 3)), (-1, False, "t2new", (1, 0, 3, 2))])]
    return rels


def lams_rels(singles):
    rels = []
    if singles:
        rels += [same("l1new", "l1new.aa", VO), same("l1new", "l1new.bb", VO)]
    rels += [same("l2new", "l2new.abab", VVOO), antis("l2new", "l2new.aaaa", VVOO),
             antis("l2new", "l2new.bbbb", VVOO),
             (VVOO, [(1, False, "l2new", (0, 1, 2, 3)), (-1, False, "l2new", (1, 0, 3, 2))])]
    return rels


SINGLES = {"MP2": False, "LCCD": False, "CCD": False, "DCD": False, "LCCSD": True, "CC2": True, "CCSD": True,
           "QCISD": True, "DCSD": True}


BOSONS = {"CCSD_S_1_1": ["s1", "u11"], "CCSD_SD_1_1": ["s1", "s2", "u11"],
          "CCSD_SD_1_2": ["s1", "s2", "u11", "u12"]}


def bos(vals, restricted):
    """arguments with bosonic axes"""
    def f(name):
        parts = name.split(".")
        if parts[0] not in BOS:
            return vals(name)
        n, sp = BOS[parts[0]]
        if n == 7:
            sp = parts[1 if restricted else 2]
        return blk(n, spcs(sp))
    return f


def bos_rels(prefix, names):
    rels = []
    for n in names:
        n = prefix + n
        sp = tuple(spcs(BOS[n][1]))
        ends = [""] if BOS[n][1].strip("b") == "" else [".aa", ".bb"]
        rels += [same(n + "new", n + "new" + end, sp) for end in ends]
    return rels


def bos_claim(kind, method):
    r, u = bos(rvals, True), bos(uvals, False)
    if kind == "energy":
        return ("R" + method, "energy", r), ("U" + method, "energy", u), [same("e_cc", "e_cc", ())]
    if kind == "amps":
        rels = amps_rels(True) + bos_rels("", BOSONS[method])
        if method == "CCSD_S_1_1":  # the restricted singles are twice the unrestricted ones
            rels[:2] = [(sp, [a, (-2,) + b[1:]]) for sp, (a, b) in rels[:2]]
        return ("R" + method, "update_amps", r), ("U" + method, "update_amps", u), rels
    return (("R" + method, "update_lams", r), ("U" + method, "update_lams", u),
            lams_rels(True) + bos_rels("l", BOSONS[method]))


def claim(name):
    """functions, arguments and relations of a claim"""
    kind, method = name.split("_", 1)
    if method in BOSONS:
        return bos_claim(kind, method)
    singles = SINGLES[method]
    e = "e_mp" if method == "MP2" else "e_cc"
    if kind == "energy":
        return ("R" + method, "energy", rvals), ("U" + method, "energy", uvals), [same(e, e, ())]
    if kind == "amps":
        return ("R" + method, "update_amps", rvals), ("U" + method, "update_amps", uvals), amps_rels(singles)
    if kind == "lams":
        return ("R" + method, "update_lams", rvals), ("U" + method, "update_lams", uvals), lams_rels(singles)
    if kind == "dfenergy":
        return ("R" + method, "energy", rbvals), ("RDF" + method, "energy", dfvals), [same(e, e, ())]
    if kind == "dfamps":
        rels = [same("t1new", "t1new", OV)] if singles else []
        return (("R" + method, "update_amps", rbvals), ("RDF" + method, "update_amps", dfvals),
                rels + [same("t2new", "t2new", OOVV)])
    if kind == "dflams":
        rels = [same("l1new", "l1new", VO)] if singles else []
        return (("R" + method, "update_lams", rbvals), ("RDF" + method, "update_lams", dfvals),
                rels + [same("l2new", "l2new", VVOO)])
    raise SystemExit("unknown claim " + name)


def lean_list(hints):
    lines, line = [], "  "
    for k, h in enumerate(hints):
        item = f"{h}" + ("," if k + 1 < len(hints) else "")
        if len(line) + len(item) > 118:
            lines.append(line.rstrip())
            line = "  "
        line += item + " "
    lines.append(line.rstrip())
    return "[\n" + "\n".join(lines) + "]"


def main():
    code = Code(sys.argv[1])
    module = os.path.basename(sys.argv[2])[:-5]
    out = ["/-!", "Hints for claims of `tools/hints.py`.", "-/", "", "set_option maxRecDepth 100000", "",
           "namespace Ebcc.Hints", ""]
    for name in sys.argv[3:]:
        f, g, rels = claim(name)
        cn = Canon(SYM)
        r = run(cn, code.get(f[0], f[1]), mod4, base(f[2]))
        u = run(cn, code.get(g[0], g[1]), mod4, base(g[2]))
        ok = check_rels(cn, r, u, rels)
        print(module, name, ok, len(cn.hints), flush=True)
        if not ok:
            raise SystemExit(1)
        out += [f"def {name} : List Nat := " + lean_list(cn.hints), ""]
    out += ["end Ebcc.Hints", ""]
    with open(sys.argv[2], "w") as fh:
        fh.write("\n".join(out))


if __name__ == "__main__":
    main()
