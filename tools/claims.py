#!/usr/bin/env python3
"""Find the hints for `checkClaim` (`Verif/Tensor/Claim.lean`).

Usage: claims.py /repo/ebcc/codegen OUTPUT.lean CLAIM ...

A claim is a list of calls and a list of identities.  Nothing here is trusted: the hints are checked.
"""

import itertools
import os
import sys
from fractions import Fraction

sys.path.insert(0, os.path.dirname(os.path.abspath(__file__)))
from hints import Canon, Code, add, blk, canon_all, ein, insert, lean_list, mod4, scale, spcs  # noqa: E402

DELTA = 15


class DeltaCanon(Canon):
    """`canonDelta`"""

    def __call__(self, fs):
        fs = list(fs)
        for _ in range(len(fs)):
            for k, (t, ix) in enumerate(fs):
                if t == DELTA and ix[0] != ix[1] and ix[0] % 16 == ix[1] % 16 and max(ix) >= 512:
                    i, j = ix if ix[0] >= 512 else (ix[1], ix[0])
                    fs = [(u, tuple(j if x == i else x for x in js)) for u, js in fs[:k] + fs[k + 1:]]
                    break
            else:
                break
        return super().__call__(fs)


def run(cn, fn, rho, vals):
    env = {name: vals(name) for name in fn.used}
    for line, stmt in fn.stmts:
        kind, x = stmt[0], stmt[1]
        if kind == "del":
            del env[x]
        elif kind == "zeros":
            env[x] = (tuple(rho(s) for s in stmt[2]), {})
        elif stmt[2][0] == "eye":
            s = rho(stmt[2][1])
            env[x] = ((s, s), {((DELTA, (s, 16 + s)),): Fraction(1)})
        else:
            e, coef = stmt[2], stmt[3]
            if e[0] == "cp":
                v = env[e[1]]
            elif e[0] == "tr":
                w = env[e[1]]
                v = ein(cn, [(list(range(len(w[0]))), w)], list(e[2]))
            else:
                v = ein(cn, [(ls, env[n]) for n, ls in e[1]], e[2])
            v = (v[0], scale(v[1], coef))
            if kind == "add":
                assert v[0] == env[x][0], (line, x)
                v = (v[0], add(env[x][1], v[1]))
            env[x] = v
    return {key: env[name] for key, name in fn.ret}


def terms(cn, vals, sps, nf, p, ts):
    for coef, ops in ts:
        vs = []
        for name, ls in ops:
            v = vals(name)
            assert tuple(v[0]) == tuple(sps[x] for x in ls), (name, v[0], ls)
            vs.append((list(ls), v))
        p = add(p, scale(ein(cn, vs, list(range(nf)))[1], Fraction(coef)))
    return p


def derivative(cn, dm, p):
    raws = []
    for fs, c in p.items():
        for k, (t, ix) in enumerate(fs):
            if dm(t) is not None:
                raws.append((c, fs[:k] + ((dm(t), ix),) + fs[k + 1:]))
    return canon_all(cn, raws)


REST = []


def check(code, sym, table, calls, dm, rels, rho=mod4, verbose=True):
    cn = DeltaCanon(sym)
    res = {}

    def vals(name):
        if name[0] in res and name[1:] in res[name[0]]:
            return res[name[0]][name[1:]]
        sp, raws = table(name)
        return tuple(sp), canon_all(cn, raws)

    for module, fname, tag, amap in calls:
        res[tag] = run(cn, code.get(module, fname), rho, lambda name: vals(amap(name)))
    ok = True
    for label, (sps, nf, dterms, ts) in rels:
        p = terms(cn, vals, sps, nf, {}, dterms)
        p = derivative(cn, dm, p)
        p = terms(cn, vals, sps, nf, p, ts)
        if p:
            ok = False
            REST.append(p)
            if verbose:
                print("  identity fails:", label, len(p))
                for fs, c in list(p.items())[:8]:
                    print("     ", c, fs)
    return ok, cn.hints


# --- Spin orbitals, `Verif/Tensor/SetupG.lean`


def sign(p):
    s = 1
    for i in range(len(p)):
        for j in range(i):
            s *= -1 if p[j] > p[i] else 1
    return s


def signed(n, m):
    return [(p + tuple(n + x for x in q), sign(p) * sign(q))
            for p in itertools.permutations(range(n)) for q in itertools.permutations(range(m))]


SYM2 = [((0, 1), 1), ((1, 0), 1)]
_PQ = [(((0, 1), 1), ((2, 3), 1)), (((0, 1), 1), ((3, 2), -1)), (((1, 0), -1), ((2, 3), 1)), (((1, 0), -1), ((3, 2), -1))]
HAM = {2: SYM2,
       3: [(p + q, s * t) for (p, s), (q, t) in _PQ] + [(q + p, s * t) for (p, s), (q, t) in _PQ],
       4: [((0, 1, 2), 1)], 5: [((0,), 1)], 6: SYM2, DELTA: SYM2}
AMPS = {0: [((0, 1), 1)], 1: signed(2, 2), 2: signed(3, 3), 3: [((0,), 1)], 4: SYM2, 5: [((0, 1, 2), 1)],
        6: [((0, 1, 2, 3), 1), ((1, 0, 2, 3), 1)]}
GSYM = dict(HAM)
for _k in (16, 32, 48):
    for _j, _s in AMPS.items():
        GSYM[_k + _j] = _s


def one(sp, t, ix):
    return spcs(sp), [(Fraction(1), ((t, tuple(ix)),))]


AMP = {"t1": (0, "ov"), "t2": (1, "oovv"), "t3": (2, "ooovvv"), "s1": (3, "b"), "s2": (4, "bb"), "u11": (5, "bov"),
       "u12": (6, "bbov")}
LAM = {"l1": ("vo", 32, [16, 1]), "l2": ("vvoo", 33, [32, 48, 1, 17]), "l3": ("vvvooo", 34, [48, 64, 80, 1, 17, 33]),
       "ls1": ("b", 35, [2]), "ls2": ("bb", 36, [2, 18]), "lu11": ("bvo", 37, [2, 32, 17]),
       "lu12": ("bbvo", 38, [2, 18, 48, 33])}


def gvals(name):
    k = 16
    if name[0] == "d":
        k, name = 48, name[1:]
    if name in AMP:
        return blk(k + AMP[name][0], spcs(AMP[name][1]))
    if name in LAM:
        return one(*LAM[name])
    if name == "G":
        return blk(5, spcs("b"))
    if name == "w":
        return blk(6, spcs("bb"))
    head, key = name.split(".")
    return blk({"f": 2, "v": 3, "g": 4}[head], spcs(key))


def gdm(t):
    return t + 32 if 16 <= t < 32 else None


def same(name):
    return name


# the spaces of the labels of identities: i j k a b c x y, and further ones
SPS = [0, 0, 0, 1, 1, 1, 2, 2, 0, 0, 0, 1, 1, 1, 2, 2]
SORT = {  # labels of the amplitudes and of the lambda amplitudes, and the weight
    "t1": ([0, 3], [3, 0], 1), "t2": ([0, 1, 3, 4], [3, 4, 0, 1], Fraction(1, 4)),
    "t3": ([0, 1, 2, 3, 4, 5], [3, 4, 5, 0, 1, 2], Fraction(1, 36)),
    "s1": ([6], [6], 1), "s2": ([6, 7], [6, 7], Fraction(1, 2)), "u11": ([6, 0, 3], [6, 3, 0], 1),
    "u12": ([6, 7, 0, 3], [6, 7, 3, 0], Fraction(1, 2)),
}
SORTS = {"CCD": ["t2"], "CC2": ["t1", "t2"], "CCSD": ["t1", "t2"], "CCSDT": ["t1", "t2", "t3"],
         "CCSD_S_1_1": ["t1", "t2", "s1", "u11"], "CCSD_SD_1_1": ["t1", "t2", "s1", "s2", "u11"],
         "CCSD_SD_1_2": ["t1", "t2", "s1", "s2", "u11", "u12"]}


def lam(t):
    return "l" + t[1:] if t[0] == "t" else "l" + t


def lagrangian(method):
    return [(1, [("Ee_cc", [])])] + [
        (SORT[t][2], [(lam(t), SORT[t][1]), ("A" + t + "new", SORT[t][0])]) for t in SORTS[method]]


# terms with residuals in the gradient of the Lagrangian, `Verif/Thms/C76.lean`
H = Fraction(1, 2)
X1 = [(1, [("l2", [3, 4, 0, 1]), ("dt1", [0, 3]), ("At1new", [1, 4])]),
      (1, [("lu11", [6, 3, 0]), ("dt1", [0, 3]), ("As1new", [6])]),
      (1, [("lu11", [6, 3, 0]), ("ds1", [6]), ("At1new", [0, 3])])]
X2 = X1 + [(1, [("ls2", [6, 7]), ("ds1", [6]), ("As1new", [7])])]
X3 = X2 + [(H, [("lu12", [6, 7, 3, 0]), ("dt1", [0, 3]), ("As2new", [6, 7])]),
           (1, [("lu12", [6, 7, 3, 0]), ("ds1", [6]), ("Au11new", [7, 0, 3])]),
           (H, [("lu12", [6, 7, 3, 0]), ("ds2", [6, 7]), ("At1new", [0, 3])])]
EXT = {"CCSD_S_1_1": X1, "CCSD_SD_1_1": X2, "CCSD_SD_1_2": X3}


def gradient(method):
    ts = [(-SORT[t][2], [("L" + lam(t) + "new", SORT[t][1]), ("d" + t, SORT[t][0])]) for t in SORTS[method]]
    return SPS, 0, lagrangian(method), ts + EXT.get(method, [])


# density matrices, `Verif/Tensor/Density.lean`


class Eye:
    """`eyeFun`"""

    used = []
    stmts = [(0, ("eye", "oo", ("eye", 0)))]
    ret = [("oo", "oo")]


class Codes(Code):
    def get(self, module, name):
        return Eye() if name == "eye" else super().get(module, name)


def lab(k, s):
    return [0, 1, 2, 8][k] + 3 * s


def key(*sps):
    return "".join("ov"[s] for s in sps)


OV = (0, 1)
DM = {"CCD": "", "CCSD": "", "CC2": ""}


def density_energy(method):
    n1, n2 = "Prdm1%s." % DM.get(method, "_f"), "Qrdm2%s." % DM.get(method, "_f")
    ts = lagrangian(method)
    ts += [(-1, [("f." + key(x, y), [lab(0, x), lab(1, y)]), (n1 + key(x, y), [lab(0, x), lab(1, y)])])
           for x in OV for y in OV]
    ts += [(1, [("v." + key(x, 0, y, 0), [lab(0, x), 2, lab(1, y), 2]), (n1 + key(x, y), [lab(0, x), lab(1, y)])])
           for x in OV for y in OV]
    ts += [(-Fraction(1, 4), [("v." + key(x, z, y, w), [lab(0, x), lab(2, z), lab(1, y), lab(3, w)]),
                              (n2 + key(x, y, z, w), [lab(0, x), lab(1, y), lab(2, z), lab(3, w)])])
           for x in OV for y in OV for z in OV for w in OV]
    ts += [(1, [("f.oo", [0, 0])]), (-H, [("v.oooo", [0, 1, 0, 1])])]
    if "_" in method:
        ts += [(-1, [("w", [6, 7]), ("Yrdm1_b", [6, 7])])]
        for j in "01":
            ts += [(-1, [("G", [6]), ("Xdm_b." + j, [6])]), (1, [("g.boo", [6, 0, 0]), ("Xdm_b." + j, [6])])]
        ts += [(-1, [("g.b" + key(y, x), [6, lab(1, y), lab(0, x)]),
                     ("Zrdm_eb.0." + key(x, y), [6, lab(0, x), lab(1, y)])]) for x in OV for y in OV]
        ts += [(-1, [("g.b" + key(x, y), [6, lab(0, x), lab(1, y)]),
                     ("Zrdm_eb.1." + key(x, y), [6, lab(0, x), lab(1, y)])]) for x in OV for y in OV]
    return SPS, 0, [], ts


def density_traces(method):
    n1, n2 = "Prdm1%s." % DM.get(method, "_f"), "Qrdm2%s." % DM.get(method, "_f")
    rels = [("trace", ([0, 1], 0, [], [(1, [(n1 + "oo", [0, 0])]), (1, [(n1 + "vv", [1, 1])]), (-1, [("Doo", [0, 0])])]))]
    for x in OV:
        for y in OV:
            rels.append(("partial trace", ([x, y, 0, 1], 2, [], [
                (1, [(n2 + key(x, y, 0, 0), [0, 1, 2, 2])]), (1, [(n2 + key(x, y, 1, 1), [0, 1, 3, 3])]),
                (-1, [("Doo", [2, 2]), (n1 + key(x, y), [0, 1])]), (1, [(n1 + key(x, y), [0, 1])])])))
    for x in OV:
        for y in OV:
            for z in OV:
                for w in OV:
                    a = (1, [(n2 + key(x, y, z, w), [0, 1, 2, 3])])
                    rels.append(("pairs", ([x, y, z, w], 4, [], [a, (-1, [(n2 + key(z, w, x, y), [2, 3, 0, 1])])])))
                    rels.append(("exchange", ([x, y, z, w], 4, [], [a, (1, [(n2 + key(x, w, z, y), [0, 3, 2, 1])])])))
    return rels


def density_calls(method, amps):
    m = "G" + method
    calls = [(m, "energy", "E", same), ("G" + amps, "update_amps", "A", same), (m, "make_rdm1_f", "P", same),
             (m, "make_rdm2_f", "Q", same)]
    if "_" in method:
        calls += [(m, "make_sing_b_dm", "X", same), (m, "make_rdm1_b", "Y", same), (m, "make_eb_coup_rdm", "Z", same)]
    return calls


# excitations, `Verif/Tensor/Eom.lean`

EOM = {"ip": ("o", "oov", H), "ea": ("v", "vvo", H), "ee": ("ov", "oovv", Fraction(1, 4))}

EOM_LABELS = {"ip": ([0], [0, 1, 3]), "ea": ([3], [3, 4, 0]), "ee": ([0, 3], [0, 1, 3, 4])}


def eom_sym(typ):
    sym = dict(GSYM)
    for k in (64, 66):
        sym[k] = [((0, 1), 1)] if typ == "ee" else [((0,), 1)]
        sym[k + 1] = signed(2, 2) if typ == "ee" else [((0, 1, 2), 1), ((1, 0, 2), -1)]
    return sym


VEC = {"r1": (64, 0), "r2": (65, 1), "q1": (66, 0), "q2": (67, 1)}


def eom_vals(typ, zero=()):
    def vals(name):
        if name in VEC:
            t, k = VEC[name]
            sp, raws = blk(t, spcs(EOM[typ][k]))
            return sp, ([] if name in zero else raws)
        return gvals(name)
    return vals


def eom_arg(tag, vec):
    def amap(name):
        if name in ("r1", "r2"):
            return vec + name[1:]
        return tag + name[5:] if name.startswith("ints.") else name
    return amap


def eom_calls(method, typ):
    m = "G" + method
    left = "" if method == "MP2" else "l"
    return [(m, f"hbar_matvec_{typ}_intermediates", "I", same), (m, f"hbar_matvec_{typ}", "M", eom_arg("I", "r")),
            (m, f"hbar_{left}matvec_{typ}_intermediates", "J", same),
            (m, f"hbar_{left}matvec_{typ}", "N", eom_arg("J", "q"))]


def adjoint(typ):
    s1, s2, w = EOM[typ]
    l1, l2 = EOM_LABELS[typ]
    return SPS, 0, [], [
        (1, [("q1", l1), ("Mr1new", l1)]), (w, [("q2", l2), ("Mr2new", l2)]),
        (-1, [("r1", l1), ("Nr1new", l1)]), (-w, [("r2", l2), ("Nr2new", l2)])]


JAC1 = ("t1", ([0, 1], 2, [(1, [("At1new", [0, 1])])], [(-1, [("Mr1new", [0, 1])])]))
JAC2 = ([0, 0, 1, 1], 4, [(1, [("At2new", [0, 1, 2, 3])])], [(-1, [("Mr2new", [0, 1, 2, 3])])])
JACX = [(s, [("r1", [i, a]), ("At1new", [j, b])]) for s, i, j, a, b in (
    (1, 0, 1, 2, 3), (-1, 1, 0, 2, 3), (-1, 0, 1, 3, 2), (1, 1, 0, 3, 2))]
JACOBIAN = {"CCSD": [JAC1, ("t2", JAC2[:3] + (JAC2[3] + JACX,))], "CC2": [JAC1], "CCD": [("t2", JAC2)]}


def jdm(t):
    return 64 + t - 16 if t in (16, 17) else gdm(t)


# external corrections, `Verif/Tensor/External.lean`: the spaces 4 and 5 are the active ones, the tensor 64 selects
# the active orbitals, 65 are the amplitudes of fourth order

EXT_SPC = {"o": 0, "v": 1, "O": 4, "V": 5}
EXT_SYM = dict(GSYM)
EXT_SYM[64] = [((0, 1), 1)]
EXT_SYM[65] = [(tuple(range(8)), 1)]


def inflated(t, sp, to):
    """The tensor `t` with the spaces `sp`, as an array with the spaces `to`."""
    inner, fs = [], []
    for k, (s, u) in enumerate(zip(sp, to)):
        if s == u:
            inner.append(16 * k + s)
        else:
            inner.append(16 * (32 + k) + s)
            fs.append((64, (inner[-1], 16 * k + u) if u >= 4 else (16 * k + u, inner[-1])))
    return to, [(Fraction(1), ((t, tuple(inner)),) + tuple(fs))]


ACT = {"t3": (18, [4, 4, 4, 5, 5, 5]), "t4": (65, [4, 4, 4, 4, 5, 5, 5, 5])}


def ext_vals(name):
    if name in ACT:
        return blk(*ACT[name])
    if name[0] == "X":
        t, sp = ACT[name[1:]]
        return inflated(t, sp, [s - 4 for s in sp])
    if name[0] == "S":
        return blk(64, [EXT_SPC[c] for c in name[2:]])
    if name[:2] in ("f.", "v."):
        to = [EXT_SPC[c] for c in name[2:]]
        return inflated({"f": 2, "v": 3}[name[0]], [s % 4 for s in to], to)
    return gvals(name)


def ext_arg(name):
    return "X" + name if name in ACT else name


EXT_KEYS = ["OOVV", "OoVV", "oOVV", "OOvV", "OOVv"]


def scattered(name, key):
    """The block `key` of the correction `name` at its place in the full array; labels `i j a b I J A B`."""
    n = len(key) // 2
    full = [0, 1, 2, 3] if n == 2 else [0, 2]
    ls = [x + 4 if c.isupper() else x for c, x in zip(key, full)]
    return -1, [(name + "." + key, ls)] + [("S." + c.lower() + c, [x, x + 4]) for c, x in zip(key, full) if c.isupper()]


def ext_rels():
    sps = [0, 0, 1, 1, 4, 4, 5, 5]
    two = (sps, 4, [], [(1, [("At2new", [0, 1, 2, 3])]), (-1, [("Ct2new", [0, 1, 2, 3])])]
           + [scattered("Et2new", k) for k in EXT_KEYS] + [scattered("Mt2new", k) for k in EXT_KEYS])
    sps = [0, 1, 4, 5]
    one = (sps, 2, [], [(1, [("At1new", [0, 1])]), (-1, [("Ct1new", [0, 1])]),
                        (-1, [("Et1new.OV", [2, 3]), ("S.oO", [0, 2]), ("S.vV", [1, 3])])])
    return [("t1", one), ("t2", two)]


EXT_CALLS = [("GCCSDTQ", "update_amps/t1new+t2new", "A", ext_arg), ("GCCSD", "update_amps", "C", same),
             ("GecCC", "update_amps_external", "E", same), ("GecCC", "update_amps_mixed", "M", same)]


# smaller methods, `Verif/Thms/C91.lean`: functions `P` and `Q`, amplitudes which are zero, whether the coupling and the
# Fock matrix are zero, and pairs of results with their spaces and the axes of the second result

RESULTS = {"t1new": "ov", "t2new": "oovv", "t3new": "ooovvv", "s1new": "b", "s2new": "bb", "u11new": "bov",
           "u12new": "bbov", "e_cc": "", "e_mp": "", "l1new": "vo", "l2new": "vvoo", "ls1new": "b", "ls2new": "bb",
           "lu11new": "bvo", "dm_b.0": "b", "dm_b.1": "b", "rdm1_b": "bb"}


def zero_vals(off, g, f):
    names = set(off) | {lam(t) for t in off}

    def vals(name):
        sp, raws = gvals(name)
        return sp, ([] if name in names or (g and name[:2] == "g.") or (f and name[:2] == "f.") else raws)
    return vals


def plain(names):
    return [(n, n, RESULTS[n], list(range(len(RESULTS[n])))) for n in names]


def dens(n, m, rank, swap=False):
    out = []
    for x in itertools.product("ov", repeat=rank):
        perm = [k ^ 1 if swap else k for k in range(rank)]
        out.append((n + "." + "".join(x), m + "." + "".join(x[k] for k in perm), "".join(x), perm))
    return out


def coup():
    return [(n, n, "b" + x + y, [0, 1, 2]) for j in "01" for x in "ov" for y in "ov" for n in [f"rdm_eb.{j}.{x}{y}"]]


REDUCE = {
    "CCSD_CCD": (["t1"], False), "QCISD_CCD": (["t1"], False), "LCCSD_LCCD": (["t1"], False), "CC2_MP2": (["t1"], False),
    "CCD_MP2": ([], False), "CCSDT_CCSD": (["t3"], False), "CCSD_S_1_1_CCSD": (["s1", "u11"], True),
    "CCSD_SD_1_1_CCSD_S_1_1": (["s2"], False), "CCSD_SD_1_2_CCSD_SD_1_1": (["u12"], False)}


def reduced(name):
    """`kind:big:small`"""
    kind, big, small = name.split(":")
    off, g = REDUCE[big + "_" + small]
    sorts = SORTS.get(small, ["t2"] if small == "LCCD" else [])
    n, m = DM.get(big, "_f"), DM.get(small, "_f")
    fn, pairs = {
        "energy": ("energy", [("e_cc", "e_mp" if small == "MP2" else "e_cc", "", [])]),
        "amps": ("update_amps", plain([t + "new" for t in sorts])),
        "lams": ("update_lams", plain([lam(t) + "new" for t in sorts])),
        "rdm1": ("make_rdm1_f", dens("rdm1" + n, "rdm1" + m, 2, "S" in big[4:] and small == "CCSD")),
        "rdm2": ("make_rdm2_f", dens("rdm2" + n, "rdm2" + m, 4, "S" in big[4:] and small == "CCSD")),
        "singb": ("make_sing_b_dm", plain(["dm_b.0", "dm_b.1"])), "rdm1b": ("make_rdm1_b", plain(["rdm1_b"])),
        "coup": ("make_eb_coup_rdm", coup())}[kind]
    if kind == "lams" and big == "CCSD_S_1_1":
        pairs = plain(["l2new"])
    if kind == "lams" and big == "CCSD_SD_1_1":
        pairs = [x for x in pairs if x[0] != "lu11new"]
    rels = [(x[0], (spcs(x[2]), len(x[2]), [], [(1, [("P" + x[0], list(range(len(x[2]))))]), (-1, [("Q" + x[1], x[3])])]))
            for x in pairs]
    return GSYM, zero_vals(off, g, False), [("G" + big, fn, "P", same), ("G" + small, fn, "Q", same)], gdm, rels


def reduced_special(name):
    if name == "lams1":
        calls = [("GCCSD_S_1_1", "update_lams", "P", same), ("GCCSD", "update_lams", "Q", same),
                 ("GCCSD", "update_amps", "A", same)]
        rels = [("l1", ([1, 0, 1, 0], 2, [], [(1, [("Pl1new", [0, 1])]), (-1, [("Ql1new", [0, 1])]),
                                             (-1, [("l2", [0, 2, 1, 3]), ("At1new", [3, 2])])]))]
        return GSYM, zero_vals(["s1", "u11"], True, False), calls, gdm, rels
    if name == "mp3":
        calls = [("GMP3", "energy", "P", same), ("GLCCD", "update_amps", "Q", same)]
        rels = [("energy", (SPS, 0, [], [(1, [("Pe_mp", [])]), (-Fraction(1, 4), [("t2", [0, 1, 3, 4]),
                                                                                ("Qt2new", [0, 1, 3, 4])])]))]
        return GSYM, zero_vals([], False, True), calls, gdm, rels
    if name == "lu11":
        calls = [("GCCSD_SD_1_1", "update_lams", "P", same), ("GCCSD_S_1_1", "update_lams", "Q", same)]
        rels = [("lu11", ([2, 1, 0], 3, [], [(1, [("Plu11new", [0, 1, 2])]), (-1, [("Qlu11new", [0, 1, 2])])]))]
        return GSYM, zero_vals(["s2"], False, False), calls, gdm, rels


def reduced_eom(name):
    left, typ = name.split(":")[1:]
    left = left.replace("r", "")
    base = eom_vals(typ)
    zero = zero_vals(["t1"], False, False)

    def vals(x):
        return base(x) if x in VEC else zero(x)
    calls = []
    for m, i, tag in (("GCCSD", "I", "M"), ("GCCD", "J", "N")):
        calls += [(m, f"hbar_{left}matvec_{typ}_intermediates", i, same), (m, f"hbar_{left}matvec_{typ}", tag, eom_arg(i, "r"))]
    rels = [(k, (spcs(s), len(s), [], [(1, [("M" + k, list(range(len(s))))]), (-1, [("N" + k, list(range(len(s))))])]))
            for k, s in (("r1new", EOM[typ][0]), ("r2new", EOM[typ][1]))]
    return eom_sym(typ), vals, calls, gdm, rels


def claim(name):
    if name.startswith("eom:"):
        return reduced_eom(name)
    if ":" in name:
        return reduced(name)
    if name in ("lams1", "mp3", "lu11"):
        return reduced_special(name)
    if name == "external":
        return EXT_SYM, ext_vals, EXT_CALLS, gdm, ext_rels(), lambda s: s
    kind, method = name.split("_", 1)
    if kind in EOM:
        return eom_sym(kind), eom_vals(kind), eom_calls(method, kind), gdm, [("adjoint", adjoint(kind))]
    if kind in ("jac", "jacx"):
        calls = [("G" + method, "update_amps", "A", same)] + eom_calls(method, "ee")[:2]
        zero = ("r1",) if method == "CCD" else ()
        rels = [("t2", JAC2)] if kind == "jacx" else JACOBIAN[method]
        return eom_sym("ee"), eom_vals("ee", zero), calls, jdm, rels
    if kind == "gamps":
        return GSYM, gvals, [("G" + method, "update_amps", "A", same)], gdm, []
    if kind == "dene":
        amps = "CCSD" if method == "CC2" else method
        return GSYM, gvals, density_calls(method, amps), gdm, [("energy", density_energy(method))]
    if kind == "denx":
        return GSYM, gvals, density_calls(method, method), gdm, [("energy", density_energy(method))]
    if kind == "dent":
        calls = density_calls(method, method)[2:4] + [(None, "eye", "D", same)]
        return GSYM, gvals, calls, gdm, density_traces(method)
    if kind == "grad":
        m = "G" + method
        calls = [(m, "energy", "E", same), (m, "update_amps", "A", same), (m, "update_lams", "L", same)]
        return GSYM, gvals, calls, gdm, [("gradient", gradient(method))]
    raise SystemExit("unknown claim " + name)


def deviation(code, name):
    """The terms that are missing in an identity, as terms of arguments."""
    sym, table, calls, dm, rels = claim(name)
    REST.clear()
    check(code, sym, table, calls, dm, rels, verbose=False)
    out = []
    nf = rels[0][1][1]
    sps = rels[0][1][0] + SPS if nf else SPS
    for fs, c in REST[0].items():
        labels = {}
        used = []

        def label(i):
            if nf and i < 512:
                return i // 16
            if i not in labels:
                labels[i] = next(x for x in range(nf, len(sps)) if sps[x] == i % 16 and x not in used)
                used.append(labels[i])
            return labels[i]

        ops = []
        for t, ix in fs:
            ls = [label(i) for i in ix]
            key = "".join("ovb"[i % 16] for i in ix)
            if t in (2, 3, 4):
                ops.append(({2: "f.", 3: "v.", 4: "g."}[t] + key, ls))
            elif t >= 64:
                ops.append((next(n for n, (u, _) in VEC.items() if u == t), ls))
            elif t in (5, 6):
                ops.append(({5: "G", 6: "w"}[t], ls))
            elif 32 <= t < 48:
                name = next(n for n, (_, u, _) in LAM.items() if u == t)
                jx = LAM[name][2]
                # the axis k of the array is the index of the tensor at the position of 16 k + space
                ops.append((name, [ls[[j // 16 for j in jx].index(k)] for k in range(len(ls))]))
            else:
                name = next(n for n, (u, _) in AMP.items() if u == t % 16)
                ops.append((("d" if t >= 48 else "") + name, ls))
        out.append((-c, ops))
    return out


def lean_terms(ts):
    def op(o):
        return f'(chars! "{o[0]}", {o[1]})'
    return "[\n" + ",\n".join(
        f"  ⟨{c.numerator}, {c.denominator}, [" + ", ".join(map(op, ops)) + "]⟩" for c, ops in ts) + "]"


def main():
    code = Codes(sys.argv[1])
    module = os.path.basename(sys.argv[2])[:-5]
    out = ["/-!", "Hints for claims of `tools/claims.py`.", "-/", "", "set_option maxRecDepth 100000", "",
           "namespace Ebcc.Hints", ""]
    for name in sys.argv[3:]:
        if name.startswith(("dev_", "dev:")):
            claimed = "grad_" + name[4:] if name[3] == "_" else name[4:]
            dev = deviation(code, claimed)
            out += [f"def {name.replace(':', '_')} : List ITerm := " + lean_terms(dev), ""]
            sym, table, calls, dm, rels = claim(claimed)
            label, (sps, nf, dts, ts) = rels[0]
            sps = sps + SPS if nf else sps
            ok, hints = check(code, sym, table, calls, dm, [(label, (sps, nf, dts, ts + dev))])
            name = claimed
            out[0] = "import Verif.Tensor.Identity\n/-!"
        else:
            ok, hints = check(code, *claim(name))
        print(module, name, ok, len(hints), flush=True)
        if not ok:
            raise SystemExit(1)
        out += [f"def {name.replace(':', '_')} : List Nat := " + lean_list(hints), ""]
    out += ["end Ebcc.Hints", ""]
    with open(sys.argv[2], "w") as fh:
        fh.write("\n".join(out))


if __name__ == "__main__":
    main()
