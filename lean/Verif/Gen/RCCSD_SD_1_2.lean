import Verif.Model.GenCode
/-!
Functions of `ebcc/codegen/RCCSD_SD_1_2.py`, written by `tools/gencode.py`.  Comments give the
number and the text of the line of each statement.
-/

set_option maxRecDepth 100000

namespace Ebcc.Gen.RCCSD_SD_1_2

/-- codegen/RCCSD_SD_1_2.py:7-27 `energy`. -/
def energy : GenFun where
  args := [chars! "v.ovov", chars! "t2", chars! "t1", chars! "u11", chars! "s1", chars! "g.bov", chars! "f.ov", chars! "G"]
  body := [
    -- 9: x0 = np.zeros((nocc, nocc, nvir, nvir), dtype=types[float])
    .zeros 8 [0, 0, 1, 1],
    -- 10: x0 += einsum("iajb->jiab", v.ovov)
    .add 8 (.ein [(0, [0, 1, 2, 3])] [2, 0, 1, 3]) 1 1,
    -- 11: x0 += einsum("iajb->jiba", v.ovov) * -0.5
    .add 8 (.ein [(0, [0, 1, 2, 3])] [2, 0, 3, 1]) (-1) 2,
    -- 12: x1 = np.zeros((nocc, nocc, nvir, nvir), dtype=types[float])
    .zeros 9 [0, 0, 1, 1],
    -- 13: x1 += einsum("ijab->jiba", t2)
    .add 9 (.ein [(1, [0, 1, 2, 3])] [1, 0, 3, 2]) 1 1,
    -- 14: x1 += einsum("ia,jb->ijab", t1, t1)
    .add 9 (.ein [(2, [0, 1]), (2, [2, 3])] [0, 2, 1, 3]) 1 1,
    -- 15: e_cc = 0
    .zeros 10 [],
    -- 16: e_cc += einsum("ijab,ijba->", x0, x1) * 2
    .add 10 (.ein [(8, [0, 1, 2, 3]), (9, [0, 1, 3, 2])] []) 2 1,
    -- 17: del x0
    .del 8,
    -- 18: del x1
    .del 9,
    -- 19: x2 = np.zeros((nbos, nocc, nvir), dtype=types[float])
    .zeros 11 [2, 0, 1],
    -- 20: x2 += einsum("wia->wia", u11)
    .add 11 (.ein [(3, [0, 1, 2])] [0, 1, 2]) 1 1,
    -- 21: x2 += einsum("w,ia->wia", s1, t1)
    .add 11 (.ein [(4, [0]), (2, [1, 2])] [0, 1, 2]) 1 1,
    -- 22: e_cc += einsum("wia,wia->", g.bov, x2) * 2
    .add 10 (.ein [(5, [0, 1, 2]), (11, [0, 1, 2])] []) 2 1,
    -- 23: del x2
    .del 11,
    -- 24: e_cc += einsum("ia,ia->", f.ov, t1) * 2
    .add 10 (.ein [(6, [0, 1]), (2, [0, 1])] []) 2 1,
    -- 25: e_cc += einsum("w,w->", G, s1)
    .add 10 (.ein [(7, [0]), (4, [0])] []) 1 1
  ]
  ret := [(chars! "e_cc", 10)]

/-- codegen/RCCSD_SD_1_2.py:29-631 `update_amps`. -/
def update_amps : GenFun where
  args := [chars! "g.boo", chars! "g.bvo", chars! "g.bov", chars! "g.bvv", chars! "t1", chars! "v.ovov", chars! "t2", chars! "v.ooov", chars! "v.ovvv", chars! "s1", chars! "u11", chars! "u12", chars! "f.ov", chars! "v.ovvo", chars! "v.oovv", chars! "f.oo", chars! "f.vv", chars! "G", chars! "s2", chars! "v.vvvv", chars! "v.vovv", chars! "v.oooo", chars! "v.oovo", chars! "w", chars! "f.vo", chars! "v.vovo"]
  body := [
    -- 31: gc = Namespace(
    .set 26 (.tr 0 [0, 2, 1]) 1 1,
    .set 27 (.tr 1 [0, 2, 1]) 1 1,
    .set 28 (.tr 2 [0, 2, 1]) 1 1,
    .set 29 (.tr 3 [0, 2, 1]) 1 1,
    -- 39: x0 = np.zeros((nocc, nocc, nocc, nvir), dtype=types[float])
    .zeros 30 [0, 0, 0, 1],
    -- 40: x0 += einsum("ia,jbka->ijkb", t1, v.ovov)
    .add 30 (.ein [(4, [0, 1]), (5, [2, 3, 4, 1])] [0, 2, 4, 3]) 1 1,
    -- 41: x1 = np.zeros((nocc, nocc, nocc, nvir), dtype=types[float])
    .zeros 31 [0, 0, 0, 1],
    -- 42: x1 += einsum("ijka->ijka", x0) * 2
    .add 31 (.ein [(30, [0, 1, 2, 3])] [0, 1, 2, 3]) 2 1,
    -- 43: x1 += einsum("ijka->ikja", x0) * -1
    .add 31 (.ein [(30, [0, 1, 2, 3])] [0, 2, 1, 3]) (-1) 1,
    -- 44: x28 = np.zeros((nocc, nocc, nocc, nocc), dtype=types[float])
    .zeros 32 [0, 0, 0, 0],
    -- 45: x28 += einsum("ia,jkla->jilk", t1, x0)
    .add 32 (.ein [(4, [0, 1]), (30, [2, 3, 4, 1])] [2, 0, 4, 3]) 1 1,
    -- 46: x88 = np.zeros((nocc, nocc, nocc, nocc), dtype=types[float])
    .zeros 33 [0, 0, 0, 0],
    -- 47: x88 += einsum("ijkl->lkji", x28)
    .add 33 (.ein [(32, [0, 1, 2, 3])] [3, 2, 1, 0]) 1 1,
    -- 48: t2new = np.zeros((nocc, nocc, nvir, nvir), dtype=types[float])
    .zeros 34 [0, 0, 1, 1],
    -- 49: t2new += einsum("ijab,klij->lkba", t2, x28)
    .add 34 (.ein [(6, [0, 1, 2, 3]), (32, [4, 5, 0, 1])] [5, 4, 3, 2]) 1 1,
    -- 50: del x28
    .del 32,
    -- 51: x35 = np.zeros((nocc, nocc, nocc, nvir), dtype=types[float])
    .zeros 35 [0, 0, 0, 1],
    -- 52: x35 += einsum("ijab,kjla->kilb", t2, x0)
    .add 35 (.ein [(6, [0, 1, 2, 3]), (30, [4, 1, 5, 2])] [4, 0, 5, 3]) 1 1,
    -- 53: x41 = np.zeros((nocc, nocc, nocc, nvir), dtype=types[float])
    .zeros 36 [0, 0, 0, 1],
    -- 54: x41 -= einsum("ijka->ikja", x35)
    .add 36 (.ein [(35, [0, 1, 2, 3])] [0, 2, 1, 3]) (-1) 1,
    -- 55: del x35
    .del 35,
    -- 56: x36 = np.zeros((nocc, nocc, nocc, nvir), dtype=types[float])
    .zeros 37 [0, 0, 0, 1],
    -- 57: x36 += einsum("ijka->ijka", x0) * 2
    .add 37 (.ein [(30, [0, 1, 2, 3])] [0, 1, 2, 3]) 2 1,
    -- 58: x36 -= einsum("ijka->ikja", x0)
    .add 37 (.ein [(30, [0, 1, 2, 3])] [0, 2, 1, 3]) (-1) 1,
    -- 59: x37 = np.zeros((nocc, nocc, nocc, nvir), dtype=types[float])
    .zeros 38 [0, 0, 0, 1],
    -- 60: x37 += einsum("ijab,kila->jklb", t2, x36)
    .add 38 (.ein [(6, [0, 1, 2, 3]), (37, [4, 0, 5, 2])] [1, 4, 5, 3]) 1 1,
    -- 61: del x36
    .del 37,
    -- 62: x41 += einsum("ijka->jkia", x37)
    .add 36 (.ein [(38, [0, 1, 2, 3])] [1, 2, 0, 3]) 1 1,
    -- 63: del x37
    .del 38,
    -- 64: x65 = np.zeros((nocc, nocc, nocc, nvir), dtype=types[float])
    .zeros 39 [0, 0, 0, 1],
    -- 65: x65 += einsum("ijab,klja->kilb", t2, x0)
    .add 39 (.ein [(6, [0, 1, 2, 3]), (30, [4, 5, 1, 2])] [4, 0, 5, 3]) 1 1,
    -- 66: x69 = np.zeros((nocc, nocc, nocc, nvir), dtype=types[float])
    .zeros 40 [0, 0, 0, 1],
    -- 67: x69 -= einsum("ijka->kija", x65)
    .add 40 (.ein [(39, [0, 1, 2, 3])] [2, 0, 1, 3]) (-1) 1,
    -- 68: del x65
    .del 39,
    -- 69: x136 = np.zeros((nocc, nocc, nocc, nvir), dtype=types[float])
    .zeros 41 [0, 0, 0, 1],
    -- 70: x136 -= einsum("ijka->jkia", x0)
    .add 41 (.ein [(30, [0, 1, 2, 3])] [1, 2, 0, 3]) (-1) 1,
    -- 71: x136 += einsum("ijka->kjia", x0) * 2
    .add 41 (.ein [(30, [0, 1, 2, 3])] [2, 1, 0, 3]) 2 1,
    -- 72: del x0
    .del 30,
    -- 73: x1 += einsum("ijka->jika", v.ooov) * -1
    .add 31 (.ein [(7, [0, 1, 2, 3])] [1, 0, 2, 3]) (-1) 1,
    -- 74: x1 += einsum("ijka->jkia", v.ooov) * 2
    .add 31 (.ein [(7, [0, 1, 2, 3])] [1, 2, 0, 3]) 2 1,
    -- 75: t1new = np.zeros((nocc, nvir), dtype=types[float])
    .zeros 42 [0, 1],
    -- 76: t1new += einsum("ijab,kjib->ka", t2, x1) * -1
    .add 42 (.ein [(6, [0, 1, 2, 3]), (31, [4, 1, 0, 3])] [4, 2]) (-1) 1,
    -- 77: del x1
    .del 31,
    -- 78: x2 = np.zeros((nocc, nvir, nvir, nvir), dtype=types[float])
    .zeros 43 [0, 1, 1, 1],
    -- 79: x2 += einsum("iabc->ibac", v.ovvv)
    .add 43 (.ein [(8, [0, 1, 2, 3])] [0, 2, 1, 3]) 1 1,
    -- 80: x2 += einsum("iabc->ibca", v.ovvv) * -0.5
    .add 43 (.ein [(8, [0, 1, 2, 3])] [0, 2, 3, 1]) (-1) 2,
    -- 81: x102 = np.zeros((nvir, nvir), dtype=types[float])
    .zeros 44 [1, 1],
    -- 82: x102 += einsum("ia,ibac->bc", t1, x2) * 2
    .add 44 (.ein [(4, [0, 1]), (43, [0, 2, 1, 3])] [2, 3]) 2 1,
    -- 83: x104 = np.zeros((nvir, nvir), dtype=types[float])
    .zeros 45 [1, 1],
    -- 84: x104 += einsum("ab->ab", x102)
    .add 45 (.ein [(44, [0, 1])] [0, 1]) 1 1,
    -- 85: x135 = np.zeros((nvir, nvir), dtype=types[float])
    .zeros 46 [1, 1],
    -- 86: x135 += einsum("ab->ab", x102)
    .add 46 (.ein [(44, [0, 1])] [0, 1]) 1 1,
    -- 87: del x102
    .del 44,
    -- 88: t1new += einsum("ijab,icab->jc", t2, x2) * 2
    .add 42 (.ein [(6, [0, 1, 2, 3]), (43, [0, 4, 2, 3])] [1, 4]) 2 1,
    -- 89: del x2
    .del 43,
    -- 90: x3 = np.zeros((nocc, nvir), dtype=types[float])
    .zeros 47 [0, 1],
    -- 91: x3 += einsum("w,wia->ia", s1, g.bov)
    .add 47 (.ein [(9, [0]), (2, [0, 1, 2])] [1, 2]) 1 1,
    -- 92: x6 = np.zeros((nocc, nvir), dtype=types[float])
    .zeros 48 [0, 1],
    -- 93: x6 += einsum("ia->ia", x3)
    .add 48 (.ein [(47, [0, 1])] [0, 1]) 1 1,
    -- 94: x18 = np.zeros((nocc, nvir), dtype=types[float])
    .zeros 49 [0, 1],
    -- 95: x18 += einsum("ia->ia", x3) * 0.5
    .add 49 (.ein [(47, [0, 1])] [0, 1]) 1 2,
    -- 96: x108 = np.zeros((nocc, nvir), dtype=types[float])
    .zeros 50 [0, 1],
    -- 97: x108 += einsum("ia->ia", x3)
    .add 50 (.ein [(47, [0, 1])] [0, 1]) 1 1,
    -- 98: del x3
    .del 47,
    -- 99: x4 = np.zeros((nocc, nocc, nvir, nvir), dtype=types[float])
    .zeros 51 [0, 0, 1, 1],
    -- 100: x4 += einsum("iajb->jiab", v.ovov) * 2
    .add 51 (.ein [(5, [0, 1, 2, 3])] [2, 0, 1, 3]) 2 1,
    -- 101: x4 -= einsum("iajb->jiba", v.ovov)
    .add 51 (.ein [(5, [0, 1, 2, 3])] [2, 0, 3, 1]) (-1) 1,
    -- 102: x5 = np.zeros((nocc, nvir), dtype=types[float])
    .zeros 52 [0, 1],
    -- 103: x5 += einsum("ia,ijba->jb", t1, x4)
    .add 52 (.ein [(4, [0, 1]), (51, [0, 2, 3, 1])] [2, 3]) 1 1,
    -- 104: x6 += einsum("ia->ia", x5)
    .add 48 (.ein [(52, [0, 1])] [0, 1]) 1 1,
    -- 105: del x5
    .del 52,
    -- 106: x97 = np.zeros((nbos, nocc, nvir), dtype=types[float])
    .zeros 53 [2, 0, 1],
    -- 107: x97 += einsum("wia,ijba->wjb", u11, x4)
    .add 53 (.ein [(10, [0, 1, 2]), (51, [1, 3, 4, 2])] [0, 3, 4]) 1 1,
    -- 108: x99 = np.zeros((nbos, nocc, nvir), dtype=types[float])
    .zeros 54 [2, 0, 1],
    -- 109: x99 += einsum("wia->wia", x97)
    .add 54 (.ein [(53, [0, 1, 2])] [0, 1, 2]) 1 1,
    -- 110: x117 = np.zeros((nbos, nvir, nvir), dtype=types[float])
    .zeros 55 [2, 1, 1],
    -- 111: x117 += einsum("ia,wib->wab", t1, x97)
    .add 55 (.ein [(4, [0, 1]), (53, [2, 0, 3])] [2, 1, 3]) 1 1,
    -- 112: x118 = np.zeros((nbos, nvir, nvir), dtype=types[float])
    .zeros 56 [2, 1, 1],
    -- 113: x118 += einsum("wab->wba", x117)
    .add 56 (.ein [(55, [0, 1, 2])] [0, 2, 1]) 1 1,
    -- 114: del x117
    .del 55,
    -- 115: x125 = np.zeros((nbos, nocc, nocc), dtype=types[float])
    .zeros 57 [2, 0, 0],
    -- 116: x125 += einsum("ia,wja->wij", t1, x97)
    .add 57 (.ein [(4, [0, 1]), (53, [2, 3, 1])] [2, 0, 3]) 1 1,
    -- 117: x126 = np.zeros((nbos, nocc, nocc), dtype=types[float])
    .zeros 58 [2, 0, 0],
    -- 118: x126 += einsum("wij->wji", x125)
    .add 58 (.ein [(57, [0, 1, 2])] [0, 2, 1]) 1 1,
    -- 119: del x125
    .del 57,
    -- 120: s2new = np.zeros((nbos, nbos), dtype=types[float])
    .zeros 59 [2, 2],
    -- 121: s2new += einsum("wia,xia->wx", u11, x97) * 2
    .add 59 (.ein [(10, [0, 1, 2]), (53, [3, 1, 2])] [0, 3]) 2 1,
    -- 122: del x97
    .del 53,
    -- 123: x133 = np.zeros((nbos, nbos, nocc, nvir), dtype=types[float])
    .zeros 60 [2, 2, 0, 1],
    -- 124: x133 += einsum("wxia,ijba->xwjb", u12, x4)
    .add 60 (.ein [(11, [0, 1, 2, 3]), (51, [2, 4, 5, 3])] [1, 0, 4, 5]) 1 1,
    -- 125: del x4
    .del 51,
    -- 126: x6 += einsum("ia->ia", f.ov)
    .add 48 (.ein [(12, [0, 1])] [0, 1]) 1 1,
    -- 127: x68 = np.zeros((nocc, nocc, nocc, nvir), dtype=types[float])
    .zeros 61 [0, 0, 0, 1],
    -- 128: x68 += einsum("ia,jkab->jkib", x6, t2)
    .add 61 (.ein [(48, [0, 1]), (6, [2, 3, 1, 4])] [2, 3, 0, 4]) 1 1,
    -- 129: x69 += einsum("ijka->kjia", x68)
    .add 40 (.ein [(61, [0, 1, 2, 3])] [2, 1, 0, 3]) 1 1,
    -- 130: del x68
    .del 61,
    -- 131: x71 = np.zeros((nocc, nocc), dtype=types[float])
    .zeros 62 [0, 0],
    -- 132: x71 += einsum("ia,ja->ij", t1, x6)
    .add 62 (.ein [(4, [0, 1]), (48, [2, 1])] [0, 2]) 1 1,
    -- 133: x72 = np.zeros((nocc, nocc), dtype=types[float])
    .zeros 63 [0, 0],
    -- 134: x72 += einsum("ij->ij", x71)
    .add 63 (.ein [(62, [0, 1])] [0, 1]) 1 1,
    -- 135: del x71
    .del 62,
    -- 136: x120 = np.zeros((nbos, nocc, nocc), dtype=types[float])
    .zeros 64 [2, 0, 0],
    -- 137: x120 += einsum("ia,wja->wji", x6, u11)
    .add 64 (.ein [(48, [0, 1]), (10, [2, 3, 1])] [2, 3, 0]) 1 1,
    -- 138: x123 = np.zeros((nbos, nocc, nocc), dtype=types[float])
    .zeros 65 [2, 0, 0],
    -- 139: x123 += einsum("wij->wji", x120)
    .add 65 (.ein [(64, [0, 1, 2])] [0, 2, 1]) 1 1,
    -- 140: del x120
    .del 64,
    -- 141: x137 = np.zeros((nbos, nbos, nocc, nocc), dtype=types[float])
    .zeros 66 [2, 2, 0, 0],
    -- 142: x137 += einsum("ia,wxja->xwij", x6, u12)
    .add 66 (.ein [(48, [0, 1]), (11, [2, 3, 4, 1])] [3, 2, 0, 4]) 1 1,
    -- 143: s1new = np.zeros((nbos), dtype=types[float])
    .zeros 67 [2],
    -- 144: s1new += einsum("ia,wia->w", x6, u11) * 2
    .add 67 (.ein [(48, [0, 1]), (10, [2, 0, 1])] [2]) 2 1,
    -- 145: s2new += einsum("ia,wxia->xw", x6, u12) * 2
    .add 59 (.ein [(48, [0, 1]), (11, [2, 3, 0, 1])] [3, 2]) 2 1,
    -- 146: x7 = np.zeros((nocc, nocc, nvir, nvir), dtype=types[float])
    .zeros 68 [0, 0, 1, 1],
    -- 147: x7 += einsum("ijab->jiab", t2) * 2
    .add 68 (.ein [(6, [0, 1, 2, 3])] [1, 0, 2, 3]) 2 1,
    -- 148: x7 -= einsum("ijab->jiba", t2)
    .add 68 (.ein [(6, [0, 1, 2, 3])] [1, 0, 3, 2]) (-1) 1,
    -- 149: x47 = np.zeros((nbos, nocc, nvir), dtype=types[float])
    .zeros 69 [2, 0, 1],
    -- 150: x47 += einsum("wia,ijba->wjb", g.bov, x7)
    .add 69 (.ein [(2, [0, 1, 2]), (68, [1, 3, 4, 2])] [0, 3, 4]) 1 1,
    -- 151: x49 = np.zeros((nbos, nocc, nvir), dtype=types[float])
    .zeros 70 [2, 0, 1],
    -- 152: x49 += einsum("wia->wia", x47)
    .add 70 (.ein [(69, [0, 1, 2])] [0, 1, 2]) 1 1,
    -- 153: del x47
    .del 69,
    -- 154: t1new += einsum("ia,ijba->jb", x6, x7)
    .add 42 (.ein [(48, [0, 1]), (68, [0, 2, 3, 1])] [2, 3]) 1 1,
    -- 155: del x6
    .del 48,
    -- 156: u12new = np.zeros((nbos, nbos, nocc, nvir), dtype=types[float])
    .zeros 71 [2, 2, 0, 1],
    -- 157: u12new += einsum("wxia,ijba->xwjb", x133, x7)
    .add 71 (.ein [(60, [0, 1, 2, 3]), (68, [2, 4, 5, 3])] [1, 0, 4, 5]) 1 1,
    -- 158: del x133
    .del 60,
    -- 159: x8 = np.zeros((nocc, nocc, nvir, nvir), dtype=types[float])
    .zeros 72 [0, 0, 1, 1],
    -- 160: x8 += einsum("iabj->ijba", v.ovvo) * 2
    .add 72 (.ein [(13, [0, 1, 2, 3])] [0, 3, 2, 1]) 2 1,
    -- 161: x8 -= einsum("ijab->ijab", v.oovv)
    .add 72 (.ein [(14, [0, 1, 2, 3])] [0, 1, 2, 3]) (-1) 1,
    -- 162: t1new += einsum("ia,ijba->jb", t1, x8)
    .add 42 (.ein [(4, [0, 1]), (72, [0, 2, 3, 1])] [2, 3]) 1 1,
    -- 163: u11new = np.zeros((nbos, nocc, nvir), dtype=types[float])
    .zeros 73 [2, 0, 1],
    -- 164: u11new += einsum("wia,ijba->wjb", u11, x8)
    .add 73 (.ein [(10, [0, 1, 2]), (72, [1, 3, 4, 2])] [0, 3, 4]) 1 1,
    -- 165: del x8
    .del 72,
    -- 166: x9 = np.zeros((nbos, nocc, nocc), dtype=types[float])
    .zeros 74 [2, 0, 0],
    -- 167: x9 += einsum("ia,wja->wji", t1, g.bov)
    .add 74 (.ein [(4, [0, 1]), (2, [2, 3, 1])] [2, 3, 0]) 1 1,
    -- 168: x10 = np.zeros((nbos, nocc, nocc), dtype=types[float])
    .zeros 75 [2, 0, 0],
    -- 169: x10 += einsum("wij->wij", x9)
    .add 75 (.ein [(74, [0, 1, 2])] [0, 1, 2]) 1 1,
    -- 170: del x9
    .del 74,
    -- 171: x10 += einsum("wij->wij", g.boo)
    .add 75 (.ein [(0, [0, 1, 2])] [0, 1, 2]) 1 1,
    -- 172: x48 = np.zeros((nbos, nocc, nvir), dtype=types[float])
    .zeros 76 [2, 0, 1],
    -- 173: x48 += einsum("ia,wij->wja", t1, x10)
    .add 76 (.ein [(4, [0, 1]), (75, [2, 0, 3])] [2, 3, 1]) 1 1,
    -- 174: x49 -= einsum("wia->wia", x48)
    .add 70 (.ein [(76, [0, 1, 2])] [0, 1, 2]) (-1) 1,
    -- 175: del x48
    .del 76,
    -- 176: t1new -= einsum("wia,wij->ja", u11, x10)
    .add 42 (.ein [(10, [0, 1, 2]), (75, [0, 1, 3])] [3, 2]) (-1) 1,
    -- 177: u11new -= einsum("wij,wxia->xja", x10, u12)
    .add 73 (.ein [(75, [0, 1, 2]), (11, [0, 3, 1, 4])] [3, 2, 4]) (-1) 1,
    -- 178: del x10
    .del 75,
    -- 179: x11 = np.zeros((nocc, nocc), dtype=types[float])
    .zeros 77 [0, 0],
    -- 180: x11 += einsum("w,wij->ij", s1, g.boo)
    .add 77 (.ein [(9, [0]), (0, [0, 1, 2])] [1, 2]) 1 1,
    -- 181: x20 = np.zeros((nocc, nocc), dtype=types[float])
    .zeros 78 [0, 0],
    -- 182: x20 += einsum("ij->ij", x11)
    .add 78 (.ein [(77, [0, 1])] [0, 1]) 1 1,
    -- 183: x72 += einsum("ij->ji", x11)
    .add 63 (.ein [(77, [0, 1])] [1, 0]) 1 1,
    -- 184: del x11
    .del 77,
    -- 185: x12 = np.zeros((nocc, nocc), dtype=types[float])
    .zeros 79 [0, 0],
    -- 186: x12 += einsum("wia,wja->ij", g.bov, u11)
    .add 79 (.ein [(2, [0, 1, 2]), (10, [0, 3, 2])] [1, 3]) 1 1,
    -- 187: x20 += einsum("ij->ij", x12)
    .add 78 (.ein [(79, [0, 1])] [0, 1]) 1 1,
    -- 188: x53 = np.zeros((nocc, nocc), dtype=types[float])
    .zeros 80 [0, 0],
    -- 189: x53 += einsum("ij->ij", x12)
    .add 80 (.ein [(79, [0, 1])] [0, 1]) 1 1,
    -- 190: del x12
    .del 79,
    -- 191: x13 = np.zeros((nocc, nocc, nvir, nvir), dtype=types[float])
    .zeros 81 [0, 0, 1, 1],
    -- 192: x13 += einsum("iajb->jiab", v.ovov)
    .add 81 (.ein [(5, [0, 1, 2, 3])] [2, 0, 1, 3]) 1 1,
    -- 193: x13 += einsum("iajb->jiba", v.ovov) * -0.5
    .add 81 (.ein [(5, [0, 1, 2, 3])] [2, 0, 3, 1]) (-1) 2,
    -- 194: x14 = np.zeros((nocc, nocc), dtype=types[float])
    .zeros 82 [0, 0],
    -- 195: x14 += einsum("ijab,ikba->jk", t2, x13) * 2
    .add 82 (.ein [(6, [0, 1, 2, 3]), (81, [0, 4, 3, 2])] [1, 4]) 2 1,
    -- 196: x20 += einsum("ij->ji", x14)
    .add 78 (.ein [(82, [0, 1])] [1, 0]) 1 1,
    -- 197: del x14
    .del 82,
    -- 198: x17 = np.zeros((nocc, nvir), dtype=types[float])
    .zeros 83 [0, 1],
    -- 199: x17 += einsum("ia,ijba->jb", t1, x13)
    .add 83 (.ein [(4, [0, 1]), (81, [0, 2, 3, 1])] [2, 3]) 1 1,
    -- 200: x18 += einsum("ia->ia", x17)
    .add 49 (.ein [(83, [0, 1])] [0, 1]) 1 1,
    -- 201: del x17
    .del 83,
    -- 202: x79 = np.zeros((nvir, nvir), dtype=types[float])
    .zeros 84 [1, 1],
    -- 203: x79 += einsum("ijab,ijbc->ac", t2, x13)
    .add 84 (.ein [(6, [0, 1, 2, 3]), (81, [0, 1, 3, 4])] [2, 4]) 1 1,
    -- 204: x80 = np.zeros((nocc, nocc, nvir, nvir), dtype=types[float])
    .zeros 85 [0, 0, 1, 1],
    -- 205: x80 += einsum("ab,ijbc->ijca", x79, t2) * 2
    .add 85 (.ein [(84, [0, 1]), (6, [2, 3, 1, 4])] [2, 3, 4, 0]) 2 1,
    -- 206: del x79
    .del 84,
    -- 207: x83 = np.zeros((nocc, nocc, nvir, nvir), dtype=types[float])
    .zeros 86 [0, 0, 1, 1],
    -- 208: x83 += einsum("ijab->jiab", x80)
    .add 86 (.ein [(85, [0, 1, 2, 3])] [1, 0, 2, 3]) 1 1,
    -- 209: del x80
    .del 85,
    -- 210: x81 = np.zeros((nocc, nocc), dtype=types[float])
    .zeros 87 [0, 0],
    -- 211: x81 += einsum("ijab,ikba->jk", t2, x13)
    .add 87 (.ein [(6, [0, 1, 2, 3]), (81, [0, 4, 3, 2])] [1, 4]) 1 1,
    -- 212: x82 = np.zeros((nocc, nocc, nvir, nvir), dtype=types[float])
    .zeros 88 [0, 0, 1, 1],
    -- 213: x82 += einsum("ij,jkab->kiab", x81, t2) * 2
    .add 88 (.ein [(87, [0, 1]), (6, [1, 2, 3, 4])] [2, 0, 3, 4]) 2 1,
    -- 214: del x81
    .del 87,
    -- 215: x83 += einsum("ijab->ijba", x82)
    .add 86 (.ein [(88, [0, 1, 2, 3])] [0, 1, 3, 2]) 1 1,
    -- 216: del x82
    .del 88,
    -- 217: x103 = np.zeros((nocc, nvir), dtype=types[float])
    .zeros 89 [0, 1],
    -- 218: x103 += einsum("ia,ijba->jb", t1, x13) * 2
    .add 89 (.ein [(4, [0, 1]), (81, [0, 2, 3, 1])] [2, 3]) 2 1,
    -- 219: del x13
    .del 81,
    -- 220: x104 += einsum("ia,ib->ab", t1, x103) * -1
    .add 45 (.ein [(4, [0, 1]), (89, [0, 2])] [1, 2]) (-1) 1,
    -- 221: del x103
    .del 89,
    -- 222: x15 = np.zeros((nocc, nocc, nocc, nvir), dtype=types[float])
    .zeros 90 [0, 0, 0, 1],
    -- 223: x15 += einsum("ijka->ikja", v.ooov)
    .add 90 (.ein [(7, [0, 1, 2, 3])] [0, 2, 1, 3]) 1 1,
    -- 224: x15 += einsum("ijka->kija", v.ooov) * -0.5
    .add 90 (.ein [(7, [0, 1, 2, 3])] [2, 0, 1, 3]) (-1) 2,
    -- 225: x16 = np.zeros((nocc, nocc), dtype=types[float])
    .zeros 91 [0, 0],
    -- 226: x16 += einsum("ia,jika->jk", t1, x15) * 2
    .add 91 (.ein [(4, [0, 1]), (90, [2, 0, 3, 1])] [2, 3]) 2 1,
    -- 227: del x15
    .del 90,
    -- 228: x20 += einsum("ij->ij", x16)
    .add 78 (.ein [(91, [0, 1])] [0, 1]) 1 1,
    -- 229: del x16
    .del 91,
    -- 230: x18 += einsum("ia->ia", f.ov) * 0.5
    .add 49 (.ein [(12, [0, 1])] [0, 1]) 1 2,
    -- 231: x19 = np.zeros((nocc, nocc), dtype=types[float])
    .zeros 92 [0, 0],
    -- 232: x19 += einsum("ia,ja->ij", t1, x18) * 2
    .add 92 (.ein [(4, [0, 1]), (49, [2, 1])] [0, 2]) 2 1,
    -- 233: del x18
    .del 49,
    -- 234: x20 += einsum("ij->ji", x19)
    .add 78 (.ein [(92, [0, 1])] [1, 0]) 1 1,
    -- 235: del x19
    .del 92,
    -- 236: x20 += einsum("ij->ij", f.oo)
    .add 78 (.ein [(15, [0, 1])] [0, 1]) 1 1,
    -- 237: t1new += einsum("ia,ij->ja", t1, x20) * -1
    .add 42 (.ein [(4, [0, 1]), (78, [0, 2])] [2, 1]) (-1) 1,
    -- 238: u11new += einsum("ij,wia->wja", x20, u11) * -1
    .add 73 (.ein [(78, [0, 1]), (10, [2, 0, 3])] [2, 1, 3]) (-1) 1,
    -- 239: u12new += einsum("ij,wxia->xwja", x20, u12) * -1
    .add 71 (.ein [(78, [0, 1]), (11, [2, 3, 0, 4])] [3, 2, 1, 4]) (-1) 1,
    -- 240: del x20
    .del 78,
    -- 241: x21 = np.zeros((nvir, nvir), dtype=types[float])
    .zeros 93 [1, 1],
    -- 242: x21 += einsum("w,wab->ab", s1, g.bvv)
    .add 93 (.ein [(9, [0]), (3, [0, 1, 2])] [1, 2]) 1 1,
    -- 243: x24 = np.zeros((nvir, nvir), dtype=types[float])
    .zeros 94 [1, 1],
    -- 244: x24 += einsum("ab->ab", x21)
    .add 94 (.ein [(93, [0, 1])] [0, 1]) 1 1,
    -- 245: x74 = np.zeros((nvir, nvir), dtype=types[float])
    .zeros 95 [1, 1],
    -- 246: x74 += einsum("ab->ab", x21)
    .add 95 (.ein [(93, [0, 1])] [0, 1]) 1 1,
    -- 247: x104 += einsum("ab->ab", x21)
    .add 45 (.ein [(93, [0, 1])] [0, 1]) 1 1,
    -- 248: x135 += einsum("ab->ab", x21)
    .add 46 (.ein [(93, [0, 1])] [0, 1]) 1 1,
    -- 249: del x21
    .del 93,
    -- 250: x22 = np.zeros((nocc, nvir, nvir, nvir), dtype=types[float])
    .zeros 96 [0, 1, 1, 1],
    -- 251: x22 -= einsum("iabc->ibac", v.ovvv)
    .add 96 (.ein [(8, [0, 1, 2, 3])] [0, 2, 1, 3]) (-1) 1,
    -- 252: x22 += einsum("iabc->ibca", v.ovvv) * 2
    .add 96 (.ein [(8, [0, 1, 2, 3])] [0, 2, 3, 1]) 2 1,
    -- 253: x23 = np.zeros((nvir, nvir), dtype=types[float])
    .zeros 97 [1, 1],
    -- 254: x23 += einsum("ia,ibca->bc", t1, x22)
    .add 97 (.ein [(4, [0, 1]), (96, [0, 2, 3, 1])] [2, 3]) 1 1,
    -- 255: x24 += einsum("ab->ab", x23)
    .add 94 (.ein [(97, [0, 1])] [0, 1]) 1 1,
    -- 256: x44 = np.zeros((nvir, nvir), dtype=types[float])
    .zeros 98 [1, 1],
    -- 257: x44 -= einsum("ab->ab", x23)
    .add 98 (.ein [(97, [0, 1])] [0, 1]) (-1) 1,
    -- 258: del x23
    .del 97,
    -- 259: x111 = np.zeros((nbos, nvir, nvir), dtype=types[float])
    .zeros 99 [2, 1, 1],
    -- 260: x111 += einsum("wia,ibca->wbc", u11, x22)
    .add 99 (.ein [(10, [0, 1, 2]), (96, [1, 3, 4, 2])] [0, 3, 4]) 1 1,
    -- 261: del x22
    .del 96,
    -- 262: x112 = np.zeros((nbos, nvir, nvir), dtype=types[float])
    .zeros 100 [2, 1, 1],
    -- 263: x112 += einsum("wab->wab", x111)
    .add 100 (.ein [(99, [0, 1, 2])] [0, 1, 2]) 1 1,
    -- 264: x118 -= einsum("wab->wba", x111)
    .add 56 (.ein [(99, [0, 1, 2])] [0, 2, 1]) (-1) 1,
    -- 265: del x111
    .del 99,
    -- 266: x24 += einsum("ab->ab", f.vv)
    .add 94 (.ein [(16, [0, 1])] [0, 1]) 1 1,
    -- 267: t1new += einsum("ia,ba->ib", t1, x24)
    .add 42 (.ein [(4, [0, 1]), (94, [2, 1])] [0, 2]) 1 1,
    -- 268: del x24
    .del 94,
    -- 269: x25 = np.zeros((nbos), dtype=types[float])
    .zeros 101 [2],
    -- 270: x25 += einsum("ia,wia->w", t1, g.bov)
    .add 101 (.ein [(4, [0, 1]), (2, [2, 0, 1])] [2]) 1 1,
    -- 271: x26 = np.zeros((nbos), dtype=types[float])
    .zeros 102 [2],
    -- 272: x26 += einsum("w->w", x25) * 2
    .add 102 (.ein [(101, [0])] [0]) 2 1,
    -- 273: del x25
    .del 101,
    -- 274: x26 += einsum("w->w", G)
    .add 102 (.ein [(17, [0])] [0]) 1 1,
    -- 275: t1new += einsum("w,wia->ia", x26, u11)
    .add 42 (.ein [(102, [0]), (10, [0, 1, 2])] [1, 2]) 1 1,
    -- 276: s1new += einsum("w,wx->x", x26, s2)
    .add 67 (.ein [(102, [0]), (18, [0, 1])] [1]) 1 1,
    -- 277: u11new += einsum("w,wxia->xia", x26, u12)
    .add 73 (.ein [(102, [0]), (11, [0, 1, 2, 3])] [1, 2, 3]) 1 1,
    -- 278: del x26
    .del 102,
    -- 279: x27 = np.zeros((nocc, nvir, nvir, nvir), dtype=types[float])
    .zeros 103 [0, 1, 1, 1],
    -- 280: x27 += einsum("ia,bacd->icbd", t1, v.vvvv)
    .add 103 (.ein [(4, [0, 1]), (19, [2, 1, 3, 4])] [0, 3, 2, 4]) 1 1,
    -- 281: t2new += einsum("ia,jbca->ijbc", t1, x27)
    .add 34 (.ein [(4, [0, 1]), (103, [2, 3, 4, 1])] [0, 2, 3, 4]) 1 1,
    -- 282: del x27
    .del 103,
    -- 283: x29 = np.zeros((nocc, nocc, nvir, nvir), dtype=types[float])
    .zeros 104 [0, 0, 1, 1],
    -- 284: x29 += einsum("ia,jabc->ijbc", t1, v.ovvv)
    .add 104 (.ein [(4, [0, 1]), (8, [2, 1, 3, 4])] [0, 2, 3, 4]) 1 1,
    -- 285: x30 = np.zeros((nocc, nocc, nvir, nvir), dtype=types[float])
    .zeros 105 [0, 0, 1, 1],
    -- 286: x30 += einsum("ijab,kjca->kibc", t2, x29)
    .add 105 (.ein [(6, [0, 1, 2, 3]), (104, [4, 1, 5, 2])] [4, 0, 3, 5]) 1 1,
    -- 287: del x29
    .del 104,
    -- 288: x55 = np.zeros((nocc, nocc, nvir, nvir), dtype=types[float])
    .zeros 106 [0, 0, 1, 1],
    -- 289: x55 += einsum("ijab->ijab", x30)
    .add 106 (.ein [(105, [0, 1, 2, 3])] [0, 1, 2, 3]) 1 1,
    -- 290: del x30
    .del 105,
    -- 291: x31 = np.zeros((nocc, nocc, nvir, nvir), dtype=types[float])
    .zeros 107 [0, 0, 1, 1],
    -- 292: x31 -= einsum("iajb->jiab", v.ovov)
    .add 107 (.ein [(5, [0, 1, 2, 3])] [2, 0, 1, 3]) (-1) 1,
    -- 293: x31 += einsum("iajb->jiba", v.ovov) * 2
    .add 107 (.ein [(5, [0, 1, 2, 3])] [2, 0, 3, 1]) 2 1,
    -- 294: x32 = np.zeros((nocc, nocc, nvir, nvir), dtype=types[float])
    .zeros 108 [0, 0, 1, 1],
    -- 295: x32 += einsum("ijab,ikbc->jkac", t2, x31)
    .add 108 (.ein [(6, [0, 1, 2, 3]), (107, [0, 4, 3, 5])] [1, 4, 2, 5]) 1 1,
    -- 296: x33 = np.zeros((nocc, nocc, nvir, nvir), dtype=types[float])
    .zeros 109 [0, 0, 1, 1],
    -- 297: x33 += einsum("ijab,kica->jkbc", t2, x32)
    .add 109 (.ein [(6, [0, 1, 2, 3]), (108, [4, 0, 5, 2])] [1, 4, 3, 5]) 1 1,
    -- 298: del x32
    .del 108,
    -- 299: x55 += einsum("ijab->ijab", x33)
    .add 106 (.ein [(109, [0, 1, 2, 3])] [0, 1, 2, 3]) 1 1,
    -- 300: del x33
    .del 109,
    -- 301: x85 = np.zeros((nocc, nocc, nvir, nvir), dtype=types[float])
    .zeros 110 [0, 0, 1, 1],
    -- 302: x85 += einsum("ijab,ikac->jkbc", t2, x31) * 2
    .add 110 (.ein [(6, [0, 1, 2, 3]), (107, [0, 4, 2, 5])] [1, 4, 3, 5]) 2 1,
    -- 303: del x31
    .del 107,
    -- 304: x34 = np.zeros((nocc, nocc, nocc, nvir), dtype=types[float])
    .zeros 111 [0, 0, 0, 1],
    -- 305: x34 += einsum("ijab,jkla->ilkb", t2, v.ooov)
    .add 111 (.ein [(6, [0, 1, 2, 3]), (7, [1, 4, 5, 2])] [0, 5, 4, 3]) 1 1,
    -- 306: x41 -= einsum("ijka->ijka", x34)
    .add 36 (.ein [(111, [0, 1, 2, 3])] [0, 1, 2, 3]) (-1) 1,
    -- 307: del x34
    .del 111,
    -- 308: x38 = np.zeros((nocc, nocc, nvir, nvir), dtype=types[float])
    .zeros 112 [0, 0, 1, 1],
    -- 309: x38 += einsum("ia,jbca->ijcb", t1, v.ovvv)
    .add 112 (.ein [(4, [0, 1]), (8, [2, 3, 4, 1])] [0, 2, 4, 3]) 1 1,
    -- 310: x39 = np.zeros((nocc, nocc, nvir, nvir), dtype=types[float])
    .zeros 113 [0, 0, 1, 1],
    -- 311: x39 += einsum("ijab->jiab", x38)
    .add 113 (.ein [(112, [0, 1, 2, 3])] [1, 0, 2, 3]) 1 1,
    -- 312: x57 = np.zeros((nocc, nocc, nvir, nvir), dtype=types[float])
    .zeros 114 [0, 0, 1, 1],
    -- 313: x57 += einsum("ijab,kjca->kibc", t2, x38)
    .add 114 (.ein [(6, [0, 1, 2, 3]), (112, [4, 1, 5, 2])] [4, 0, 3, 5]) 1 1,
    -- 314: del x38
    .del 112,
    -- 315: x76 = np.zeros((nocc, nocc, nvir, nvir), dtype=types[float])
    .zeros 115 [0, 0, 1, 1],
    -- 316: x76 += einsum("ijab->ijab", x57)
    .add 115 (.ein [(114, [0, 1, 2, 3])] [0, 1, 2, 3]) 1 1,
    -- 317: del x57
    .del 114,
    -- 318: x39 += einsum("iabj->ijba", v.ovvo)
    .add 113 (.ein [(13, [0, 1, 2, 3])] [0, 3, 2, 1]) 1 1,
    -- 319: x40 = np.zeros((nocc, nocc, nocc, nvir), dtype=types[float])
    .zeros 116 [0, 0, 0, 1],
    -- 320: x40 += einsum("ia,jkba->ijkb", t1, x39)
    .add 116 (.ein [(4, [0, 1]), (113, [2, 3, 4, 1])] [0, 2, 3, 4]) 1 1,
    -- 321: del x39
    .del 113,
    -- 322: x41 += einsum("ijka->ijka", x40)
    .add 36 (.ein [(116, [0, 1, 2, 3])] [0, 1, 2, 3]) 1 1,
    -- 323: del x40
    .del 116,
    -- 324: x42 = np.zeros((nocc, nocc, nvir, nvir), dtype=types[float])
    .zeros 117 [0, 0, 1, 1],
    -- 325: x42 += einsum("ia,jikb->jkab", t1, x41)
    .add 117 (.ein [(4, [0, 1]), (36, [2, 0, 3, 4])] [2, 3, 1, 4]) 1 1,
    -- 326: del x41
    .del 36,
    -- 327: x55 += einsum("ijab->ijab", x42)
    .add 106 (.ein [(117, [0, 1, 2, 3])] [0, 1, 2, 3]) 1 1,
    -- 328: del x42
    .del 117,
    -- 329: x43 = np.zeros((nvir, nvir), dtype=types[float])
    .zeros 118 [1, 1],
    -- 330: x43 += einsum("wia,wib->ab", g.bov, u11)
    .add 118 (.ein [(2, [0, 1, 2]), (10, [0, 1, 3])] [2, 3]) 1 1,
    -- 331: x44 += einsum("ab->ba", x43)
    .add 98 (.ein [(118, [0, 1])] [1, 0]) 1 1,
    -- 332: x45 = np.zeros((nocc, nocc, nvir, nvir), dtype=types[float])
    .zeros 119 [0, 0, 1, 1],
    -- 333: x45 += einsum("ab,ijbc->ijca", x44, t2)
    .add 119 (.ein [(98, [0, 1]), (6, [2, 3, 1, 4])] [2, 3, 4, 0]) 1 1,
    -- 334: del x44
    .del 98,
    -- 335: x55 += einsum("ijab->jiab", x45)
    .add 106 (.ein [(119, [0, 1, 2, 3])] [1, 0, 2, 3]) 1 1,
    -- 336: del x45
    .del 119,
    -- 337: x104 += einsum("ab->ba", x43) * -1
    .add 45 (.ein [(118, [0, 1])] [1, 0]) (-1) 1,
    -- 338: x135 += einsum("ab->ba", x43) * -1
    .add 46 (.ein [(118, [0, 1])] [1, 0]) (-1) 1,
    -- 339: del x43
    .del 118,
    -- 340: x46 = np.zeros((nbos, nocc, nvir), dtype=types[float])
    .zeros 120 [2, 0, 1],
    -- 341: x46 += einsum("ia,wba->wib", t1, g.bvv)
    .add 120 (.ein [(4, [0, 1]), (3, [2, 3, 1])] [2, 0, 3]) 1 1,
    -- 342: x49 += einsum("wia->wia", x46)
    .add 70 (.ein [(120, [0, 1, 2])] [0, 1, 2]) 1 1,
    -- 343: del x46
    .del 120,
    -- 344: x49 += einsum("wai->wia", g.bvo)
    .add 70 (.ein [(1, [0, 1, 2])] [0, 2, 1]) 1 1,
    -- 345: x50 = np.zeros((nocc, nocc, nvir, nvir), dtype=types[float])
    .zeros 121 [0, 0, 1, 1],
    -- 346: x50 += einsum("wia,wjb->ijab", u11, x49)
    .add 121 (.ein [(10, [0, 1, 2]), (70, [0, 3, 4])] [1, 3, 2, 4]) 1 1,
    -- 347: del x49
    .del 70,
    -- 348: x55 -= einsum("ijab->jiba", x50)
    .add 106 (.ein [(121, [0, 1, 2, 3])] [1, 0, 3, 2]) (-1) 1,
    -- 349: del x50
    .del 121,
    -- 350: x51 = np.zeros((nocc, nocc, nocc, nvir), dtype=types[float])
    .zeros 122 [0, 0, 0, 1],
    -- 351: x51 += einsum("ijka->ikja", v.ooov) * 2
    .add 122 (.ein [(7, [0, 1, 2, 3])] [0, 2, 1, 3]) 2 1,
    -- 352: x51 -= einsum("ijka->kija", v.ooov)
    .add 122 (.ein [(7, [0, 1, 2, 3])] [2, 0, 1, 3]) (-1) 1,
    -- 353: x52 = np.zeros((nocc, nocc), dtype=types[float])
    .zeros 123 [0, 0],
    -- 354: x52 += einsum("ia,jika->jk", t1, x51)
    .add 123 (.ein [(4, [0, 1]), (122, [2, 0, 3, 1])] [2, 3]) 1 1,
    -- 355: x53 += einsum("ij->ij", x52)
    .add 80 (.ein [(123, [0, 1])] [0, 1]) 1 1,
    -- 356: del x52
    .del 123,
    -- 357: x54 = np.zeros((nocc, nocc, nvir, nvir), dtype=types[float])
    .zeros 124 [0, 0, 1, 1],
    -- 358: x54 += einsum("ij,ikab->kjab", x53, t2)
    .add 124 (.ein [(80, [0, 1]), (6, [0, 2, 3, 4])] [2, 1, 3, 4]) 1 1,
    -- 359: del x53
    .del 80,
    -- 360: x55 += einsum("ijab->ijba", x54)
    .add 106 (.ein [(124, [0, 1, 2, 3])] [0, 1, 3, 2]) 1 1,
    -- 361: del x54
    .del 124,
    -- 362: t2new -= einsum("ijab->ijab", x55)
    .add 34 (.ein [(106, [0, 1, 2, 3])] [0, 1, 2, 3]) (-1) 1,
    -- 363: t2new -= einsum("ijab->jiba", x55)
    .add 34 (.ein [(106, [0, 1, 2, 3])] [1, 0, 3, 2]) (-1) 1,
    -- 364: del x55
    .del 106,
    -- 365: x107 = np.zeros((nbos, nocc, nocc), dtype=types[float])
    .zeros 125 [2, 0, 0],
    -- 366: x107 += einsum("wia,jika->wjk", u11, x51)
    .add 125 (.ein [(10, [0, 1, 2]), (122, [3, 1, 4, 2])] [0, 3, 4]) 1 1,
    -- 367: del x51
    .del 122,
    -- 368: x109 = np.zeros((nbos, nocc, nocc), dtype=types[float])
    .zeros 126 [2, 0, 0],
    -- 369: x109 += einsum("wij->wij", x107)
    .add 126 (.ein [(125, [0, 1, 2])] [0, 1, 2]) 1 1,
    -- 370: x126 += einsum("wij->wij", x107)
    .add 58 (.ein [(125, [0, 1, 2])] [0, 1, 2]) 1 1,
    -- 371: del x107
    .del 125,
    -- 372: x56 = np.zeros((nocc, nocc, nvir, nvir), dtype=types[float])
    .zeros 127 [0, 0, 1, 1],
    -- 373: x56 += einsum("ia,bjca->ijbc", t1, v.vovv)
    .add 127 (.ein [(4, [0, 1]), (20, [2, 3, 4, 1])] [0, 3, 2, 4]) 1 1,
    -- 374: x76 -= einsum("ijab->ijab", x56)
    .add 115 (.ein [(127, [0, 1, 2, 3])] [0, 1, 2, 3]) (-1) 1,
    -- 375: del x56
    .del 127,
    -- 376: x58 = np.zeros((nocc, nvir, nvir, nvir), dtype=types[float])
    .zeros 128 [0, 1, 1, 1],
    -- 377: x58 += einsum("iabc->ibac", v.ovvv) * 2
    .add 128 (.ein [(8, [0, 1, 2, 3])] [0, 2, 1, 3]) 2 1,
    -- 378: x58 -= einsum("iabc->ibca", v.ovvv)
    .add 128 (.ein [(8, [0, 1, 2, 3])] [0, 2, 3, 1]) (-1) 1,
    -- 379: x59 = np.zeros((nocc, nocc, nvir, nvir), dtype=types[float])
    .zeros 129 [0, 0, 1, 1],
    -- 380: x59 += einsum("ia,jbca->ijbc", t1, x58)
    .add 129 (.ein [(4, [0, 1]), (128, [2, 3, 4, 1])] [0, 2, 3, 4]) 1 1,
    -- 381: del x58
    .del 128,
    -- 382: x60 = np.zeros((nocc, nocc, nvir, nvir), dtype=types[float])
    .zeros 130 [0, 0, 1, 1],
    -- 383: x60 += einsum("ijab,kica->jkbc", t2, x59)
    .add 130 (.ein [(6, [0, 1, 2, 3]), (129, [4, 0, 5, 2])] [1, 4, 3, 5]) 1 1,
    -- 384: x76 -= einsum("ijab->jiab", x60)
    .add 115 (.ein [(130, [0, 1, 2, 3])] [1, 0, 2, 3]) (-1) 1,
    -- 385: del x60
    .del 130,
    -- 386: x134 = np.zeros((nocc, nocc, nvir, nvir), dtype=types[float])
    .zeros 131 [0, 0, 1, 1],
    -- 387: x134 += einsum("ijab->jiab", x59)
    .add 131 (.ein [(129, [0, 1, 2, 3])] [1, 0, 2, 3]) 1 1,
    -- 388: del x59
    .del 129,
    -- 389: x61 = np.zeros((nocc, nocc, nocc, nvir), dtype=types[float])
    .zeros 132 [0, 0, 0, 1],
    -- 390: x61 += einsum("ia,jkba->ijkb", t1, v.oovv)
    .add 132 (.ein [(4, [0, 1]), (14, [2, 3, 4, 1])] [0, 2, 3, 4]) 1 1,
    -- 391: x69 += einsum("ijka->jika", x61)
    .add 40 (.ein [(132, [0, 1, 2, 3])] [1, 0, 2, 3]) 1 1,
    -- 392: del x61
    .del 132,
    -- 393: x62 = np.zeros((nocc, nocc, nocc, nvir), dtype=types[float])
    .zeros 133 [0, 0, 0, 1],
    -- 394: x62 += einsum("ijab,klja->iklb", t2, v.ooov)
    .add 133 (.ein [(6, [0, 1, 2, 3]), (7, [4, 5, 1, 2])] [0, 4, 5, 3]) 1 1,
    -- 395: x69 -= einsum("ijka->jika", x62)
    .add 40 (.ein [(133, [0, 1, 2, 3])] [1, 0, 2, 3]) (-1) 1,
    -- 396: del x62
    .del 133,
    -- 397: x63 = np.zeros((nocc, nocc, nocc, nocc), dtype=types[float])
    .zeros 134 [0, 0, 0, 0],
    -- 398: x63 += einsum("ia,jkla->ijlk", t1, v.ooov)
    .add 134 (.ein [(4, [0, 1]), (7, [2, 3, 4, 1])] [0, 2, 4, 3]) 1 1,
    -- 399: x64 = np.zeros((nocc, nocc, nocc, nvir), dtype=types[float])
    .zeros 135 [0, 0, 0, 1],
    -- 400: x64 += einsum("ia,jkil->jkla", t1, x63)
    .add 135 (.ein [(4, [0, 1]), (134, [2, 3, 0, 4])] [2, 3, 4, 1]) 1 1,
    -- 401: x69 -= einsum("ijka->jika", x64)
    .add 40 (.ein [(135, [0, 1, 2, 3])] [1, 0, 2, 3]) (-1) 1,
    -- 402: del x64
    .del 135,
    -- 403: x84 = np.zeros((nocc, nocc, nvir, nvir), dtype=types[float])
    .zeros 136 [0, 0, 1, 1],
    -- 404: x84 += einsum("ijab,kjil->klba", t2, x63)
    .add 136 (.ein [(6, [0, 1, 2, 3]), (134, [4, 1, 0, 5])] [4, 5, 3, 2]) 1 1,
    -- 405: del x63
    .del 134,
    -- 406: t2new += einsum("ijab->ijba", x84)
    .add 34 (.ein [(136, [0, 1, 2, 3])] [0, 1, 3, 2]) 1 1,
    -- 407: t2new += einsum("ijab->jiab", x84)
    .add 34 (.ein [(136, [0, 1, 2, 3])] [1, 0, 2, 3]) 1 1,
    -- 408: del x84
    .del 136,
    -- 409: x66 = np.zeros((nocc, nocc, nocc, nvir), dtype=types[float])
    .zeros 137 [0, 0, 0, 1],
    -- 410: x66 -= einsum("ijka->ikja", v.ooov)
    .add 137 (.ein [(7, [0, 1, 2, 3])] [0, 2, 1, 3]) (-1) 1,
    -- 411: x66 += einsum("ijka->kija", v.ooov) * 2
    .add 137 (.ein [(7, [0, 1, 2, 3])] [2, 0, 1, 3]) 2 1,
    -- 412: x67 = np.zeros((nocc, nocc, nocc, nvir), dtype=types[float])
    .zeros 138 [0, 0, 0, 1],
    -- 413: x67 += einsum("ijab,ikla->jklb", t2, x66)
    .add 138 (.ein [(6, [0, 1, 2, 3]), (137, [0, 4, 5, 2])] [1, 4, 5, 3]) 1 1,
    -- 414: del x66
    .del 137,
    -- 415: x69 += einsum("ijka->jika", x67)
    .add 40 (.ein [(138, [0, 1, 2, 3])] [1, 0, 2, 3]) 1 1,
    -- 416: del x67
    .del 138,
    -- 417: x70 = np.zeros((nocc, nocc, nvir, nvir), dtype=types[float])
    .zeros 139 [0, 0, 1, 1],
    -- 418: x70 += einsum("ia,ijkb->jkab", t1, x69)
    .add 139 (.ein [(4, [0, 1]), (40, [0, 2, 3, 4])] [2, 3, 1, 4]) 1 1,
    -- 419: del x69
    .del 40,
    -- 420: x76 += einsum("ijab->ijab", x70)
    .add 115 (.ein [(139, [0, 1, 2, 3])] [0, 1, 2, 3]) 1 1,
    -- 421: del x70
    .del 139,
    -- 422: x72 += einsum("ij->ji", f.oo)
    .add 63 (.ein [(15, [0, 1])] [1, 0]) 1 1,
    -- 423: x73 = np.zeros((nocc, nocc, nvir, nvir), dtype=types[float])
    .zeros 140 [0, 0, 1, 1],
    -- 424: x73 += einsum("ij,jkab->kiab", x72, t2)
    .add 140 (.ein [(63, [0, 1]), (6, [1, 2, 3, 4])] [2, 0, 3, 4]) 1 1,
    -- 425: del x72
    .del 63,
    -- 426: x76 += einsum("ijab->jiba", x73)
    .add 115 (.ein [(140, [0, 1, 2, 3])] [1, 0, 3, 2]) 1 1,
    -- 427: del x73
    .del 140,
    -- 428: x74 += einsum("ab->ab", f.vv)
    .add 95 (.ein [(16, [0, 1])] [0, 1]) 1 1,
    -- 429: x75 = np.zeros((nocc, nocc, nvir, nvir), dtype=types[float])
    .zeros 141 [0, 0, 1, 1],
    -- 430: x75 += einsum("ab,ijbc->ijca", x74, t2)
    .add 141 (.ein [(95, [0, 1]), (6, [2, 3, 1, 4])] [2, 3, 4, 0]) 1 1,
    -- 431: del x74
    .del 95,
    -- 432: x76 -= einsum("ijab->jiba", x75)
    .add 115 (.ein [(141, [0, 1, 2, 3])] [1, 0, 3, 2]) (-1) 1,
    -- 433: del x75
    .del 141,
    -- 434: t2new -= einsum("ijab->ijba", x76)
    .add 34 (.ein [(115, [0, 1, 2, 3])] [0, 1, 3, 2]) (-1) 1,
    -- 435: t2new -= einsum("ijab->jiab", x76)
    .add 34 (.ein [(115, [0, 1, 2, 3])] [1, 0, 2, 3]) (-1) 1,
    -- 436: del x76
    .del 115,
    -- 437: x77 = np.zeros((nocc, nocc, nocc, nvir), dtype=types[float])
    .zeros 142 [0, 0, 0, 1],
    -- 438: x77 += einsum("ijab,kacb->ijkc", t2, v.ovvv)
    .add 142 (.ein [(6, [0, 1, 2, 3]), (8, [4, 2, 5, 3])] [0, 1, 4, 5]) 1 1,
    -- 439: x78 = np.zeros((nocc, nocc, nvir, nvir), dtype=types[float])
    .zeros 143 [0, 0, 1, 1],
    -- 440: x78 += einsum("ia,jkib->jkab", t1, x77)
    .add 143 (.ein [(4, [0, 1]), (142, [2, 3, 0, 4])] [2, 3, 1, 4]) 1 1,
    -- 441: del x77
    .del 142,
    -- 442: x83 += einsum("ijab->ijab", x78)
    .add 86 (.ein [(143, [0, 1, 2, 3])] [0, 1, 2, 3]) 1 1,
    -- 443: del x78
    .del 143,
    -- 444: t2new += einsum("ijab->ijab", x83) * -1
    .add 34 (.ein [(86, [0, 1, 2, 3])] [0, 1, 2, 3]) (-1) 1,
    -- 445: t2new += einsum("ijab->jiba", x83) * -1
    .add 34 (.ein [(86, [0, 1, 2, 3])] [1, 0, 3, 2]) (-1) 1,
    -- 446: del x83
    .del 86,
    -- 447: x85 += einsum("iabj->jiba", v.ovvo) * 2
    .add 110 (.ein [(13, [0, 1, 2, 3])] [3, 0, 2, 1]) 2 1,
    -- 448: x85 -= einsum("ijab->jiab", v.oovv)
    .add 110 (.ein [(14, [0, 1, 2, 3])] [1, 0, 2, 3]) (-1) 1,
    -- 449: t2new += einsum("ijab,kica->kjcb", t2, x85)
    .add 34 (.ein [(6, [0, 1, 2, 3]), (110, [4, 0, 5, 2])] [4, 1, 5, 3]) 1 1,
    -- 450: del x85
    .del 110,
    -- 451: x86 = np.zeros((nocc, nocc, nocc, nocc), dtype=types[float])
    .zeros 144 [0, 0, 0, 0],
    -- 452: x86 += einsum("ijab,kbla->ijlk", t2, v.ovov)
    .add 144 (.ein [(6, [0, 1, 2, 3]), (5, [4, 3, 5, 2])] [0, 1, 5, 4]) 1 1,
    -- 453: x87 = np.zeros((nocc, nocc, nocc, nocc), dtype=types[float])
    .zeros 145 [0, 0, 0, 0],
    -- 454: x87 += einsum("ijkl->lkji", x86)
    .add 145 (.ein [(144, [0, 1, 2, 3])] [3, 2, 1, 0]) 1 1,
    -- 455: x88 += einsum("ijkl->lkji", x86)
    .add 33 (.ein [(144, [0, 1, 2, 3])] [3, 2, 1, 0]) 1 1,
    -- 456: del x86
    .del 144,
    -- 457: x87 += einsum("ijkl->kilj", v.oooo)
    .add 145 (.ein [(21, [0, 1, 2, 3])] [2, 0, 3, 1]) 1 1,
    -- 458: t2new += einsum("ijab,ijkl->klab", t2, x87)
    .add 34 (.ein [(6, [0, 1, 2, 3]), (145, [0, 1, 4, 5])] [4, 5, 2, 3]) 1 1,
    -- 459: del x87
    .del 145,
    -- 460: x88 += einsum("ijkl->kilj", v.oooo)
    .add 33 (.ein [(21, [0, 1, 2, 3])] [2, 0, 3, 1]) 1 1,
    -- 461: x89 = np.zeros((nocc, nocc, nocc, nvir), dtype=types[float])
    .zeros 146 [0, 0, 0, 1],
    -- 462: x89 += einsum("ia,ijkl->lkja", t1, x88)
    .add 146 (.ein [(4, [0, 1]), (33, [0, 2, 3, 4])] [4, 3, 2, 1]) 1 1,
    -- 463: del x88
    .del 33,
    -- 464: x89 += einsum("ijak->jkia", v.oovo) * -1
    .add 146 (.ein [(22, [0, 1, 2, 3])] [1, 3, 0, 2]) (-1) 1,
    -- 465: t2new += einsum("ia,jkib->jkab", t1, x89)
    .add 34 (.ein [(4, [0, 1]), (146, [2, 3, 0, 4])] [2, 3, 1, 4]) 1 1,
    -- 466: del x89
    .del 146,
    -- 467: x90 = np.zeros((nocc, nocc, nvir, nvir), dtype=types[float])
    .zeros 147 [0, 0, 1, 1],
    -- 468: x90 -= einsum("iabj->jiba", v.ovvo)
    .add 147 (.ein [(13, [0, 1, 2, 3])] [3, 0, 2, 1]) (-1) 1,
    -- 469: x90 += einsum("ijab,jakc->ikbc", t2, v.ovov)
    .add 147 (.ein [(6, [0, 1, 2, 3]), (5, [1, 2, 4, 5])] [0, 4, 3, 5]) 1 1,
    -- 470: t2new += einsum("ijab,kicb->jkac", t2, x90)
    .add 34 (.ein [(6, [0, 1, 2, 3]), (147, [4, 0, 5, 3])] [1, 4, 2, 5]) 1 1,
    -- 471: del x90
    .del 147,
    -- 472: x91 = np.zeros((nocc, nocc, nvir, nvir), dtype=types[float])
    .zeros 148 [0, 0, 1, 1],
    -- 473: x91 -= einsum("ijab->jiab", v.oovv)
    .add 148 (.ein [(14, [0, 1, 2, 3])] [1, 0, 2, 3]) (-1) 1,
    -- 474: x91 += einsum("ijab,jcka->ikbc", t2, v.ovov)
    .add 148 (.ein [(6, [0, 1, 2, 3]), (5, [1, 4, 5, 2])] [0, 5, 3, 4]) 1 1,
    -- 475: t2new += einsum("ijab,kicb->jkca", t2, x91)
    .add 34 (.ein [(6, [0, 1, 2, 3]), (148, [4, 0, 5, 3])] [1, 4, 5, 2]) 1 1,
    -- 476: del x91
    .del 148,
    -- 477: x92 = np.zeros((nbos, nbos), dtype=types[float])
    .zeros 149 [2, 2],
    -- 478: x92 += einsum("wia,xia->wx", gc.bov, u11)
    .add 149 (.ein [(27, [0, 1, 2]), (10, [3, 1, 2])] [0, 3]) 1 1,
    -- 479: x96 = np.zeros((nbos, nbos), dtype=types[float])
    .zeros 150 [2, 2],
    -- 480: x96 += einsum("wx->wx", x92) * 2
    .add 150 (.ein [(149, [0, 1])] [0, 1]) 2 1,
    -- 481: del x92
    .del 149,
    -- 482: x93 = np.zeros((nbos, nbos), dtype=types[float])
    .zeros 151 [2, 2],
    -- 483: x93 += einsum("wia,xia->wx", g.bov, u11)
    .add 151 (.ein [(2, [0, 1, 2]), (10, [3, 1, 2])] [0, 3]) 1 1,
    -- 484: x94 = np.zeros((nbos, nbos), dtype=types[float])
    .zeros 152 [2, 2],
    -- 485: x94 += einsum("wx->wx", x93) * 2
    .add 152 (.ein [(151, [0, 1])] [0, 1]) 2 1,
    -- 486: x115 = np.zeros((nbos, nbos, nocc, nvir), dtype=types[float])
    .zeros 153 [2, 2, 0, 1],
    -- 487: x115 += einsum("wx,ywia->xyia", x93, u12)
    .add 153 (.ein [(151, [0, 1]), (11, [2, 0, 3, 4])] [1, 2, 3, 4]) 1 1,
    -- 488: del x93
    .del 151,
    -- 489: x132 = np.zeros((nbos, nbos, nocc, nvir), dtype=types[float])
    .zeros 154 [2, 2, 0, 1],
    -- 490: x132 -= einsum("wxia->wxia", x115) * 2
    .add 154 (.ein [(153, [0, 1, 2, 3])] [0, 1, 2, 3]) (-2) 1,
    -- 491: del x115
    .del 153,
    -- 492: x94 += einsum("wx->wx", w)
    .add 152 (.ein [(23, [0, 1])] [0, 1]) 1 1,
    -- 493: x95 = np.zeros((nbos, nbos), dtype=types[float])
    .zeros 155 [2, 2],
    -- 494: x95 += einsum("wx,wy->xy", s2, x94)
    .add 155 (.ein [(18, [0, 1]), (152, [0, 2])] [1, 2]) 1 1,
    -- 495: x96 += einsum("wx->wx", x95)
    .add 150 (.ein [(155, [0, 1])] [0, 1]) 1 1,
    -- 496: del x95
    .del 155,
    -- 497: s2new += einsum("wx->wx", x96)
    .add 59 (.ein [(150, [0, 1])] [0, 1]) 1 1,
    -- 498: s2new += einsum("wx->xw", x96)
    .add 59 (.ein [(150, [0, 1])] [1, 0]) 1 1,
    -- 499: del x96
    .del 150,
    -- 500: u11new += einsum("wx,wia->xia", x94, u11)
    .add 73 (.ein [(152, [0, 1]), (10, [0, 2, 3])] [1, 2, 3]) 1 1,
    -- 501: del x94
    .del 152,
    -- 502: x98 = np.zeros((nbos, nocc, nvir), dtype=types[float])
    .zeros 156 [2, 0, 1],
    -- 503: x98 += einsum("wx,xia->wia", s2, g.bov)
    .add 156 (.ein [(18, [0, 1]), (2, [1, 2, 3])] [0, 2, 3]) 1 1,
    -- 504: x99 += einsum("wia->wia", x98)
    .add 54 (.ein [(156, [0, 1, 2])] [0, 1, 2]) 1 1,
    -- 505: x121 = np.zeros((nbos, nocc, nvir), dtype=types[float])
    .zeros 157 [2, 0, 1],
    -- 506: x121 += einsum("wia->wia", x98)
    .add 157 (.ein [(156, [0, 1, 2])] [0, 1, 2]) 1 1,
    -- 507: del x98
    .del 156,
    -- 508: x99 += einsum("wia->wia", gc.bov)
    .add 54 (.ein [(27, [0, 1, 2])] [0, 1, 2]) 1 1,
    -- 509: x109 += einsum("ia,wja->wji", t1, x99)
    .add 126 (.ein [(4, [0, 1]), (54, [2, 3, 1])] [2, 3, 0]) 1 1,
    -- 510: u11new += einsum("wia,ijba->wjb", x99, x7)
    .add 73 (.ein [(54, [0, 1, 2]), (68, [1, 3, 4, 2])] [0, 3, 4]) 1 1,
    -- 511: del x99
    .del 54,
    -- 512: del x7
    .del 68,
    -- 513: x100 = np.zeros((nocc, nocc, nvir, nvir), dtype=types[float])
    .zeros 158 [0, 0, 1, 1],
    -- 514: x100 += einsum("iajb->jiab", v.ovov) * -1
    .add 158 (.ein [(5, [0, 1, 2, 3])] [2, 0, 1, 3]) (-1) 1,
    -- 515: x100 += einsum("iajb->jiba", v.ovov) * 2
    .add 158 (.ein [(5, [0, 1, 2, 3])] [2, 0, 3, 1]) 2 1,
    -- 516: x101 = np.zeros((nvir, nvir), dtype=types[float])
    .zeros 159 [1, 1],
    -- 517: x101 += einsum("ijab,ijcb->ac", t2, x100)
    .add 159 (.ein [(6, [0, 1, 2, 3]), (158, [0, 1, 4, 3])] [2, 4]) 1 1,
    -- 518: del x100
    .del 158,
    -- 519: x104 += einsum("ab->ab", x101) * -1
    .add 45 (.ein [(159, [0, 1])] [0, 1]) (-1) 1,
    -- 520: x135 += einsum("ab->ab", x101) * -1
    .add 46 (.ein [(159, [0, 1])] [0, 1]) (-1) 1,
    -- 521: del x101
    .del 159,
    -- 522: x104 += einsum("ab->ab", f.vv)
    .add 45 (.ein [(16, [0, 1])] [0, 1]) 1 1,
    -- 523: u11new += einsum("ab,wib->wia", x104, u11)
    .add 73 (.ein [(45, [0, 1]), (10, [2, 3, 1])] [2, 3, 0]) 1 1,
    -- 524: del x104
    .del 45,
    -- 525: x105 = np.zeros((nbos, nocc, nocc), dtype=types[float])
    .zeros 160 [2, 0, 0],
    -- 526: x105 += einsum("wx,xij->wij", s2, g.boo)
    .add 160 (.ein [(18, [0, 1]), (0, [1, 2, 3])] [0, 2, 3]) 1 1,
    -- 527: x109 += einsum("wij->wij", x105)
    .add 126 (.ein [(160, [0, 1, 2])] [0, 1, 2]) 1 1,
    -- 528: x123 += einsum("wij->wij", x105)
    .add 65 (.ein [(160, [0, 1, 2])] [0, 1, 2]) 1 1,
    -- 529: del x105
    .del 160,
    -- 530: x106 = np.zeros((nbos, nocc, nocc), dtype=types[float])
    .zeros 161 [2, 0, 0],
    -- 531: x106 += einsum("wia,xwja->xij", g.bov, u12)
    .add 161 (.ein [(2, [0, 1, 2]), (11, [3, 0, 4, 2])] [3, 1, 4]) 1 1,
    -- 532: x109 += einsum("wij->wij", x106)
    .add 126 (.ein [(161, [0, 1, 2])] [0, 1, 2]) 1 1,
    -- 533: x126 += einsum("wij->wij", x106)
    .add 58 (.ein [(161, [0, 1, 2])] [0, 1, 2]) 1 1,
    -- 534: del x106
    .del 161,
    -- 535: x127 = np.zeros((nbos, nbos, nocc, nvir), dtype=types[float])
    .zeros 162 [2, 2, 0, 1],
    -- 536: x127 += einsum("wia,xij->wxja", u11, x126)
    .add 162 (.ein [(10, [0, 1, 2]), (58, [3, 1, 4])] [0, 3, 4, 2]) 1 1,
    -- 537: del x126
    .del 58,
    -- 538: x132 += einsum("wxia->wxia", x127)
    .add 154 (.ein [(162, [0, 1, 2, 3])] [0, 1, 2, 3]) 1 1,
    -- 539: del x127
    .del 162,
    -- 540: x108 += einsum("ia->ia", f.ov)
    .add 50 (.ein [(12, [0, 1])] [0, 1]) 1 1,
    -- 541: x109 += einsum("ia,wja->wij", x108, u11)
    .add 126 (.ein [(50, [0, 1]), (10, [2, 3, 1])] [2, 0, 3]) 1 1,
    -- 542: del x108
    .del 50,
    -- 543: x109 += einsum("wij->wij", gc.boo)
    .add 126 (.ein [(26, [0, 1, 2])] [0, 1, 2]) 1 1,
    -- 544: u11new -= einsum("ia,wij->wja", t1, x109)
    .add 73 (.ein [(4, [0, 1]), (126, [2, 0, 3])] [2, 3, 1]) (-1) 1,
    -- 545: del x109
    .del 126,
    -- 546: x110 = np.zeros((nbos, nvir, nvir), dtype=types[float])
    .zeros 163 [2, 1, 1],
    -- 547: x110 += einsum("wx,xab->wab", s2, g.bvv)
    .add 163 (.ein [(18, [0, 1]), (3, [1, 2, 3])] [0, 2, 3]) 1 1,
    -- 548: x112 += einsum("wab->wab", x110)
    .add 100 (.ein [(163, [0, 1, 2])] [0, 1, 2]) 1 1,
    -- 549: x128 = np.zeros((nbos, nvir, nvir), dtype=types[float])
    .zeros 164 [2, 1, 1],
    -- 550: x128 += einsum("wab->wab", x110)
    .add 164 (.ein [(163, [0, 1, 2])] [0, 1, 2]) 1 1,
    -- 551: del x110
    .del 163,
    -- 552: x112 += einsum("wab->wab", gc.bvv)
    .add 100 (.ein [(29, [0, 1, 2])] [0, 1, 2]) 1 1,
    -- 553: u11new += einsum("ia,wba->wib", t1, x112)
    .add 73 (.ein [(4, [0, 1]), (100, [2, 3, 1])] [2, 0, 3]) 1 1,
    -- 554: del x112
    .del 100,
    -- 555: x113 = np.zeros((nbos, nbos, nbos), dtype=types[float])
    .zeros 165 [2, 2, 2],
    -- 556: x113 += einsum("wia,xyia->wxy", g.bov, u12)
    .add 165 (.ein [(2, [0, 1, 2]), (11, [3, 4, 1, 2])] [0, 3, 4]) 1 1,
    -- 557: u12new += einsum("wia,wxy->yxia", u11, x113) * 2
    .add 71 (.ein [(10, [0, 1, 2]), (165, [0, 3, 4])] [4, 3, 1, 2]) 2 1,
    -- 558: del x113
    .del 165,
    -- 559: x114 = np.zeros((nbos, nbos, nocc, nvir), dtype=types[float])
    .zeros 166 [2, 2, 0, 1],
    -- 560: x114 += einsum("wx,ywia->yxia", w, u12)
    .add 166 (.ein [(23, [0, 1]), (11, [2, 0, 3, 4])] [2, 1, 3, 4]) 1 1,
    -- 561: x132 -= einsum("wxia->wxia", x114)
    .add 154 (.ein [(166, [0, 1, 2, 3])] [0, 1, 2, 3]) (-1) 1,
    -- 562: del x114
    .del 166,
    -- 563: x116 = np.zeros((nbos, nvir, nvir), dtype=types[float])
    .zeros 167 [2, 1, 1],
    -- 564: x116 += einsum("wia,xwib->xab", g.bov, u12)
    .add 167 (.ein [(2, [0, 1, 2]), (11, [3, 0, 1, 4])] [3, 2, 4]) 1 1,
    -- 565: x118 += einsum("wab->wab", x116)
    .add 56 (.ein [(167, [0, 1, 2])] [0, 1, 2]) 1 1,
    -- 566: del x116
    .del 167,
    -- 567: x119 = np.zeros((nbos, nbos, nocc, nvir), dtype=types[float])
    .zeros 168 [2, 2, 0, 1],
    -- 568: x119 += einsum("wia,xab->wxib", u11, x118)
    .add 168 (.ein [(10, [0, 1, 2]), (56, [3, 2, 4])] [0, 3, 1, 4]) 1 1,
    -- 569: del x118
    .del 56,
    -- 570: x132 += einsum("wxia->wxia", x119)
    .add 154 (.ein [(168, [0, 1, 2, 3])] [0, 1, 2, 3]) 1 1,
    -- 571: del x119
    .del 168,
    -- 572: x121 += einsum("wia->wia", gc.bov)
    .add 157 (.ein [(27, [0, 1, 2])] [0, 1, 2]) 1 1,
    -- 573: x122 = np.zeros((nbos, nocc, nocc), dtype=types[float])
    .zeros 169 [2, 0, 0],
    -- 574: x122 += einsum("ia,wja->wij", t1, x121)
    .add 169 (.ein [(4, [0, 1]), (157, [2, 3, 1])] [2, 0, 3]) 1 1,
    -- 575: x123 += einsum("wij->wji", x122)
    .add 65 (.ein [(169, [0, 1, 2])] [0, 2, 1]) 1 1,
    -- 576: del x122
    .del 169,
    -- 577: x130 = np.zeros((nbos, nbos, nocc, nocc), dtype=types[float])
    .zeros 170 [2, 2, 0, 0],
    -- 578: x130 += einsum("wia,xja->wxij", u11, x121)
    .add 170 (.ein [(10, [0, 1, 2]), (157, [3, 4, 2])] [0, 3, 1, 4]) 1 1,
    -- 579: del x121
    .del 157,
    -- 580: x131 = np.zeros((nbos, nbos, nocc, nvir), dtype=types[float])
    .zeros 171 [2, 2, 0, 1],
    -- 581: x131 += einsum("ia,wxji->xwja", t1, x130)
    .add 171 (.ein [(4, [0, 1]), (170, [2, 3, 4, 0])] [3, 2, 4, 1]) 1 1,
    -- 582: del x130
    .del 170,
    -- 583: x132 += einsum("wxia->wxia", x131)
    .add 154 (.ein [(171, [0, 1, 2, 3])] [0, 1, 2, 3]) 1 1,
    -- 584: del x131
    .del 171,
    -- 585: x123 += einsum("wij->wij", gc.boo)
    .add 65 (.ein [(26, [0, 1, 2])] [0, 1, 2]) 1 1,
    -- 586: x124 = np.zeros((nbos, nbos, nocc, nvir), dtype=types[float])
    .zeros 172 [2, 2, 0, 1],
    -- 587: x124 += einsum("wia,xij->wxja", u11, x123)
    .add 172 (.ein [(10, [0, 1, 2]), (65, [3, 1, 4])] [0, 3, 4, 2]) 1 1,
    -- 588: del x123
    .del 65,
    -- 589: x132 += einsum("wxia->xwia", x124)
    .add 154 (.ein [(172, [0, 1, 2, 3])] [1, 0, 2, 3]) 1 1,
    -- 590: del x124
    .del 172,
    -- 591: x128 += einsum("wab->wab", gc.bvv)
    .add 164 (.ein [(29, [0, 1, 2])] [0, 1, 2]) 1 1,
    -- 592: x129 = np.zeros((nbos, nbos, nocc, nvir), dtype=types[float])
    .zeros 173 [2, 2, 0, 1],
    -- 593: x129 += einsum("wia,xba->wxib", u11, x128)
    .add 173 (.ein [(10, [0, 1, 2]), (164, [3, 4, 2])] [0, 3, 1, 4]) 1 1,
    -- 594: del x128
    .del 164,
    -- 595: x132 -= einsum("wxia->xwia", x129)
    .add 154 (.ein [(173, [0, 1, 2, 3])] [1, 0, 2, 3]) (-1) 1,
    -- 596: del x129
    .del 173,
    -- 597: u12new -= einsum("wxia->wxia", x132)
    .add 71 (.ein [(154, [0, 1, 2, 3])] [0, 1, 2, 3]) (-1) 1,
    -- 598: u12new -= einsum("wxia->xwia", x132)
    .add 71 (.ein [(154, [0, 1, 2, 3])] [1, 0, 2, 3]) (-1) 1,
    -- 599: del x132
    .del 154,
    -- 600: x134 += einsum("iabj->ijba", v.ovvo) * 2
    .add 131 (.ein [(13, [0, 1, 2, 3])] [0, 3, 2, 1]) 2 1,
    -- 601: x134 -= einsum("ijab->ijab", v.oovv)
    .add 131 (.ein [(14, [0, 1, 2, 3])] [0, 1, 2, 3]) (-1) 1,
    -- 602: u12new += einsum("wxia,ijba->xwjb", u12, x134)
    .add 71 (.ein [(11, [0, 1, 2, 3]), (131, [2, 4, 5, 3])] [1, 0, 4, 5]) 1 1,
    -- 603: del x134
    .del 131,
    -- 604: x135 += einsum("ab->ab", f.vv)
    .add 46 (.ein [(16, [0, 1])] [0, 1]) 1 1,
    -- 605: u12new += einsum("ab,wxib->xwia", x135, u12)
    .add 71 (.ein [(46, [0, 1]), (11, [2, 3, 4, 1])] [3, 2, 4, 0]) 1 1,
    -- 606: del x135
    .del 46,
    -- 607: x136 += einsum("ijka->ikja", v.ooov) * 2
    .add 41 (.ein [(7, [0, 1, 2, 3])] [0, 2, 1, 3]) 2 1,
    -- 608: x136 -= einsum("ijka->kija", v.ooov)
    .add 41 (.ein [(7, [0, 1, 2, 3])] [2, 0, 1, 3]) (-1) 1,
    -- 609: x137 += einsum("wxia,jika->xwjk", u12, x136)
    .add 66 (.ein [(11, [0, 1, 2, 3]), (41, [4, 2, 5, 3])] [1, 0, 4, 5]) 1 1,
    -- 610: del x136
    .del 41,
    -- 611: u12new -= einsum("ia,wxij->xwja", t1, x137)
    .add 71 (.ein [(4, [0, 1]), (66, [2, 3, 0, 4])] [3, 2, 4, 1]) (-1) 1,
    -- 612: del x137
    .del 66,
    -- 613: t1new += einsum("w,wai->ia", s1, g.bvo)
    .add 42 (.ein [(9, [0]), (1, [0, 1, 2])] [2, 1]) 1 1,
    -- 614: t1new += einsum("ai->ia", f.vo)
    .add 42 (.ein [(24, [0, 1])] [1, 0]) 1 1,
    -- 615: t1new += einsum("wab,wib->ia", g.bvv, u11)
    .add 42 (.ein [(3, [0, 1, 2]), (10, [0, 3, 2])] [3, 1]) 1 1,
    -- 616: t2new -= einsum("ijab,jack->kicb", t2, v.ovvo)
    .add 34 (.ein [(6, [0, 1, 2, 3]), (13, [1, 2, 4, 5])] [5, 0, 4, 3]) (-1) 1,
    -- 617: t2new -= einsum("ijab,jkca->kibc", t2, v.oovv)
    .add 34 (.ein [(6, [0, 1, 2, 3]), (14, [1, 4, 5, 2])] [4, 0, 3, 5]) (-1) 1,
    -- 618: t2new -= einsum("ijab,jkcb->ikac", t2, v.oovv)
    .add 34 (.ein [(6, [0, 1, 2, 3]), (14, [1, 4, 5, 3])] [0, 4, 2, 5]) (-1) 1,
    -- 619: t2new += einsum("ijab,jbck->ikac", t2, v.ovvo) * 2
    .add 34 (.ein [(6, [0, 1, 2, 3]), (13, [1, 3, 4, 5])] [0, 5, 2, 4]) 2 1,
    -- 620: t2new += einsum("ijab,cadb->jidc", t2, v.vvvv)
    .add 34 (.ein [(6, [0, 1, 2, 3]), (19, [4, 2, 5, 3])] [1, 0, 5, 4]) 1 1,
    -- 621: t2new += einsum("aibj->jiba", v.vovo)
    .add 34 (.ein [(25, [0, 1, 2, 3])] [3, 1, 2, 0]) 1 1,
    -- 622: t2new -= einsum("ia,ijbk->kjba", t1, v.oovo)
    .add 34 (.ein [(4, [0, 1]), (22, [0, 2, 3, 4])] [4, 2, 3, 1]) (-1) 1,
    -- 623: s1new += einsum("wia,xwia->x", g.bov, u12) * 2
    .add 67 (.ein [(2, [0, 1, 2]), (11, [3, 0, 1, 2])] [3]) 2 1,
    -- 624: s1new += einsum("w,wx->x", s1, w)
    .add 67 (.ein [(9, [0]), (23, [0, 1])] [1]) 1 1,
    -- 625: s1new += einsum("w->w", G)
    .add 67 (.ein [(17, [0])] [0]) 1 1,
    -- 626: s1new += einsum("ia,wia->w", t1, gc.bov) * 2
    .add 67 (.ein [(4, [0, 1]), (27, [2, 0, 1])] [2]) 2 1,
    -- 627: u11new += einsum("wab,xwib->xia", g.bvv, u12)
    .add 73 (.ein [(3, [0, 1, 2]), (11, [3, 0, 4, 2])] [3, 4, 1]) 1 1,
    -- 628: u11new += einsum("wx,xai->wia", s2, g.bvo)
    .add 73 (.ein [(18, [0, 1]), (1, [1, 2, 3])] [0, 3, 2]) 1 1,
    -- 629: u11new += einsum("wai->wia", gc.bvo)
    .add 73 (.ein [(28, [0, 1, 2])] [0, 2, 1]) 1 1
  ]
  ret := [(chars! "t1new", 42), (chars! "t2new", 34), (chars! "s1new", 67), (chars! "s2new", 59), (chars! "u11new", 73), (chars! "u12new", 71)]

/-- codegen/RCCSD_SD_1_2.py:633-1704 `update_lams`. -/
def update_lams : GenFun where
  args := [chars! "g.boo", chars! "g.bvo", chars! "g.bov", chars! "g.bvv", chars! "s1", chars! "f.ov", chars! "t2", chars! "v.ovvv", chars! "t1", chars! "v.ovov", chars! "l1", chars! "u11", chars! "u12", chars! "lu12", chars! "v.ooov", chars! "v.oovv", chars! "v.ovvo", chars! "l2", chars! "v.oooo", chars! "v.oovo", chars! "lu11", chars! "v.vvvv", chars! "v.vovv", chars! "ls1", chars! "s2", chars! "ls2", chars! "f.oo", chars! "f.vv", chars! "G", chars! "f.vo", chars! "w"]
  body := [
    -- 635: gc = Namespace(
    .set 31 (.tr 0 [0, 2, 1]) 1 1,
    .set 32 (.tr 1 [0, 2, 1]) 1 1,
    .set 33 (.tr 2 [0, 2, 1]) 1 1,
    .set 34 (.tr 3 [0, 2, 1]) 1 1,
    -- 643: x0 = np.zeros((nocc, nvir), dtype=types[float])
    .zeros 35 [0, 1],
    -- 644: x0 += einsum("w,wia->ia", s1, g.bov)
    .add 35 (.ein [(4, [0]), (2, [0, 1, 2])] [1, 2]) 1 1,
    -- 645: x1 = np.zeros((nocc, nvir), dtype=types[float])
    .zeros 36 [0, 1],
    -- 646: x1 += einsum("ia->ia", x0)
    .add 36 (.ein [(35, [0, 1])] [0, 1]) 1 1,
    -- 647: x52 = np.zeros((nocc, nvir), dtype=types[float])
    .zeros 37 [0, 1],
    -- 648: x52 += einsum("ia->ia", x0) * 0.5
    .add 37 (.ein [(35, [0, 1])] [0, 1]) 1 2,
    -- 649: x64 = np.zeros((nocc, nvir), dtype=types[float])
    .zeros 38 [0, 1],
    -- 650: x64 += einsum("ia->ia", x0)
    .add 38 (.ein [(35, [0, 1])] [0, 1]) 1 1,
    -- 651: x112 = np.zeros((nocc, nvir), dtype=types[float])
    .zeros 39 [0, 1],
    -- 652: x112 += einsum("ia->ia", x0)
    .add 39 (.ein [(35, [0, 1])] [0, 1]) 1 1,
    -- 653: x163 = np.zeros((nocc, nvir), dtype=types[float])
    .zeros 40 [0, 1],
    -- 654: x163 += einsum("ia->ia", x0)
    .add 40 (.ein [(35, [0, 1])] [0, 1]) 1 1,
    -- 655: del x0
    .del 35,
    -- 656: x1 += einsum("ia->ia", f.ov)
    .add 36 (.ein [(5, [0, 1])] [0, 1]) 1 1,
    -- 657: x2 = np.zeros((nocc, nocc, nocc, nvir), dtype=types[float])
    .zeros 41 [0, 0, 0, 1],
    -- 658: x2 += einsum("ia,jkab->jkib", x1, t2) * 0.5
    .add 41 (.ein [(36, [0, 1]), (6, [2, 3, 1, 4])] [2, 3, 0, 4]) 1 2,
    -- 659: del x1
    .del 36,
    -- 660: x20 = np.zeros((nocc, nocc, nocc, nvir), dtype=types[float])
    .zeros 42 [0, 0, 0, 1],
    -- 661: x20 += einsum("ijka->ikja", x2)
    .add 42 (.ein [(41, [0, 1, 2, 3])] [0, 2, 1, 3]) 1 1,
    -- 662: x20 += einsum("ijka->jkia", x2) * -2
    .add 42 (.ein [(41, [0, 1, 2, 3])] [1, 2, 0, 3]) (-2) 1,
    -- 663: del x2
    .del 41,
    -- 664: x3 = np.zeros((nocc, nocc, nocc, nvir), dtype=types[float])
    .zeros 43 [0, 0, 0, 1],
    -- 665: x3 += einsum("ijab,kbca->jikc", t2, v.ovvv)
    .add 43 (.ein [(6, [0, 1, 2, 3]), (7, [4, 3, 5, 2])] [1, 0, 4, 5]) 1 1,
    -- 666: x11 = np.zeros((nocc, nocc, nocc, nvir), dtype=types[float])
    .zeros 44 [0, 0, 0, 1],
    -- 667: x11 += einsum("ijka->ijka", x3) * -1
    .add 44 (.ein [(43, [0, 1, 2, 3])] [0, 1, 2, 3]) (-1) 1,
    -- 668: del x3
    .del 43,
    -- 669: x4 = np.zeros((nocc, nocc, nvir, nvir), dtype=types[float])
    .zeros 45 [0, 0, 1, 1],
    -- 670: x4 += einsum("ia,jbca->ijcb", t1, v.ovvv)
    .add 45 (.ein [(8, [0, 1]), (7, [2, 3, 4, 1])] [0, 2, 4, 3]) 1 1,
    -- 671: x5 = np.zeros((nocc, nocc, nocc, nvir), dtype=types[float])
    .zeros 46 [0, 0, 0, 1],
    -- 672: x5 += einsum("ia,jkba->ijkb", t1, x4)
    .add 46 (.ein [(8, [0, 1]), (45, [2, 3, 4, 1])] [0, 2, 3, 4]) 1 1,
    -- 673: x11 += einsum("ijka->ijka", x5) * -1
    .add 44 (.ein [(46, [0, 1, 2, 3])] [0, 1, 2, 3]) (-1) 1,
    -- 674: del x5
    .del 46,
    -- 675: x37 = np.zeros((nocc, nocc, nvir, nvir), dtype=types[float])
    .zeros 47 [0, 0, 1, 1],
    -- 676: x37 += einsum("ijab->jiab", x4)
    .add 47 (.ein [(45, [0, 1, 2, 3])] [1, 0, 2, 3]) 1 1,
    -- 677: x178 = np.zeros((nocc, nocc, nvir, nvir), dtype=types[float])
    .zeros 48 [0, 0, 1, 1],
    -- 678: x178 += einsum("ijab->ijab", x4)
    .add 48 (.ein [(45, [0, 1, 2, 3])] [0, 1, 2, 3]) 1 1,
    -- 679: del x4
    .del 45,
    -- 680: x6 = np.zeros((nocc, nocc, nocc, nocc), dtype=types[float])
    .zeros 49 [0, 0, 0, 0],
    -- 681: x6 += einsum("ijab,kalb->ijkl", t2, v.ovov)
    .add 49 (.ein [(6, [0, 1, 2, 3]), (9, [4, 2, 5, 3])] [0, 1, 4, 5]) 1 1,
    -- 682: x9 = np.zeros((nocc, nocc, nocc, nocc), dtype=types[float])
    .zeros 50 [0, 0, 0, 0],
    -- 683: x9 += einsum("ijkl->jilk", x6)
    .add 50 (.ein [(49, [0, 1, 2, 3])] [1, 0, 3, 2]) 1 1,
    -- 684: x192 = np.zeros((nocc, nocc, nocc, nocc), dtype=types[float])
    .zeros 51 [0, 0, 0, 0],
    -- 685: x192 += einsum("ijkl->lkji", x6)
    .add 51 (.ein [(49, [0, 1, 2, 3])] [3, 2, 1, 0]) 1 1,
    -- 686: del x6
    .del 49,
    -- 687: x7 = np.zeros((nocc, nocc, nocc, nvir), dtype=types[float])
    .zeros 52 [0, 0, 0, 1],
    -- 688: x7 += einsum("ia,jbka->ijkb", t1, v.ovov)
    .add 52 (.ein [(8, [0, 1]), (9, [2, 3, 4, 1])] [0, 2, 4, 3]) 1 1,
    -- 689: x8 = np.zeros((nocc, nocc, nocc, nocc), dtype=types[float])
    .zeros 53 [0, 0, 0, 0],
    -- 690: x8 += einsum("ia,jkla->ijkl", t1, x7)
    .add 53 (.ein [(8, [0, 1]), (52, [2, 3, 4, 1])] [0, 2, 3, 4]) 1 1,
    -- 691: x9 += einsum("ijkl->ijkl", x8)
    .add 50 (.ein [(53, [0, 1, 2, 3])] [0, 1, 2, 3]) 1 1,
    -- 692: x10 = np.zeros((nocc, nocc, nocc, nvir), dtype=types[float])
    .zeros 54 [0, 0, 0, 1],
    -- 693: x10 += einsum("ia,jkil->jkla", t1, x9)
    .add 54 (.ein [(8, [0, 1]), (50, [2, 3, 0, 4])] [2, 3, 4, 1]) 1 1,
    -- 694: del x9
    .del 50,
    -- 695: x11 += einsum("ijka->jika", x10)
    .add 44 (.ein [(54, [0, 1, 2, 3])] [1, 0, 2, 3]) 1 1,
    -- 696: del x10
    .del 54,
    -- 697: x20 += einsum("ijka->jkia", x11)
    .add 42 (.ein [(44, [0, 1, 2, 3])] [1, 2, 0, 3]) 1 1,
    -- 698: x20 += einsum("ijka->ikja", x11) * -0.5
    .add 42 (.ein [(44, [0, 1, 2, 3])] [0, 2, 1, 3]) (-1) 2,
    -- 699: del x11
    .del 44,
    -- 700: x192 += einsum("ijkl->lkji", x8)
    .add 51 (.ein [(53, [0, 1, 2, 3])] [3, 2, 1, 0]) 1 1,
    -- 701: del x8
    .del 53,
    -- 702: x15 = np.zeros((nocc, nocc, nocc, nvir), dtype=types[float])
    .zeros 55 [0, 0, 0, 1],
    -- 703: x15 += einsum("ijka->ikja", x7) * -0.5
    .add 55 (.ein [(52, [0, 1, 2, 3])] [0, 2, 1, 3]) (-1) 2,
    -- 704: x15 += einsum("ijka->ijka", x7)
    .add 55 (.ein [(52, [0, 1, 2, 3])] [0, 1, 2, 3]) 1 1,
    -- 705: x16 = np.zeros((nocc, nocc, nocc, nvir), dtype=types[float])
    .zeros 56 [0, 0, 0, 1],
    -- 706: x16 += einsum("ijka->ikja", x7) * 2
    .add 56 (.ein [(52, [0, 1, 2, 3])] [0, 2, 1, 3]) 2 1,
    -- 707: x16 += einsum("ijka->ijka", x7) * -1
    .add 56 (.ein [(52, [0, 1, 2, 3])] [0, 1, 2, 3]) (-1) 1,
    -- 708: x24 = np.zeros((nocc, nocc, nocc, nvir), dtype=types[float])
    .zeros 57 [0, 0, 0, 1],
    -- 709: x24 += einsum("ijka->ikja", x7) * 2
    .add 57 (.ein [(52, [0, 1, 2, 3])] [0, 2, 1, 3]) 2 1,
    -- 710: x24 -= einsum("ijka->ijka", x7)
    .add 57 (.ein [(52, [0, 1, 2, 3])] [0, 1, 2, 3]) (-1) 1,
    -- 711: x51 = np.zeros((nocc, nocc, nocc, nvir), dtype=types[float])
    .zeros 58 [0, 0, 0, 1],
    -- 712: x51 += einsum("ijka->jkia", x7) * -0.5
    .add 58 (.ein [(52, [0, 1, 2, 3])] [1, 2, 0, 3]) (-1) 2,
    -- 713: x51 += einsum("ijka->kjia", x7)
    .add 58 (.ein [(52, [0, 1, 2, 3])] [2, 1, 0, 3]) 1 1,
    -- 714: x62 = np.zeros((nocc, nocc, nocc, nvir), dtype=types[float])
    .zeros 59 [0, 0, 0, 1],
    -- 715: x62 += einsum("ijka->jkia", x7) * -1
    .add 59 (.ein [(52, [0, 1, 2, 3])] [1, 2, 0, 3]) (-1) 1,
    -- 716: x62 += einsum("ijka->kjia", x7) * 2
    .add 59 (.ein [(52, [0, 1, 2, 3])] [2, 1, 0, 3]) 2 1,
    -- 717: x152 = np.zeros((nocc, nocc, nvir, nvir), dtype=types[float])
    .zeros 60 [0, 0, 1, 1],
    -- 718: x152 += einsum("ai,ijkb->jkab", l1, x7)
    .add 60 (.ein [(10, [0, 1]), (52, [1, 2, 3, 4])] [2, 3, 0, 4]) 1 1,
    -- 719: x170 = np.zeros((nocc, nocc, nvir, nvir), dtype=types[float])
    .zeros 61 [0, 0, 1, 1],
    -- 720: x170 += einsum("ijab->ijab", x152)
    .add 61 (.ein [(60, [0, 1, 2, 3])] [0, 1, 2, 3]) 1 1,
    -- 721: del x152
    .del 60,
    -- 722: x158 = np.zeros((nocc, nocc, nocc, nvir), dtype=types[float])
    .zeros 62 [0, 0, 0, 1],
    -- 723: x158 += einsum("ijka->ijka", x7)
    .add 62 (.ein [(52, [0, 1, 2, 3])] [0, 1, 2, 3]) 1 1,
    -- 724: x239 = np.zeros((nocc, nocc, nocc, nvir), dtype=types[float])
    .zeros 63 [0, 0, 0, 1],
    -- 725: x239 -= einsum("ijka->ikja", x7)
    .add 63 (.ein [(52, [0, 1, 2, 3])] [0, 2, 1, 3]) (-1) 1,
    -- 726: x239 += einsum("ijka->ijka", x7) * 2
    .add 63 (.ein [(52, [0, 1, 2, 3])] [0, 1, 2, 3]) 2 1,
    -- 727: del x7
    .del 52,
    -- 728: x12 = np.zeros((nocc, nocc, nvir, nvir), dtype=types[float])
    .zeros 64 [0, 0, 1, 1],
    -- 729: x12 += einsum("iajb->jiab", v.ovov)
    .add 64 (.ein [(9, [0, 1, 2, 3])] [2, 0, 1, 3]) 1 1,
    -- 730: x12 += einsum("iajb->jiba", v.ovov) * -0.5
    .add 64 (.ein [(9, [0, 1, 2, 3])] [2, 0, 3, 1]) (-1) 2,
    -- 731: x13 = np.zeros((nocc, nvir), dtype=types[float])
    .zeros 65 [0, 1],
    -- 732: x13 += einsum("ia,ijba->jb", t1, x12)
    .add 65 (.ein [(8, [0, 1]), (64, [0, 2, 3, 1])] [2, 3]) 1 1,
    -- 733: x14 = np.zeros((nocc, nocc, nocc, nvir), dtype=types[float])
    .zeros 66 [0, 0, 0, 1],
    -- 734: x14 += einsum("ia,jkab->jkib", x13, t2)
    .add 66 (.ein [(65, [0, 1]), (6, [2, 3, 1, 4])] [2, 3, 0, 4]) 1 1,
    -- 735: x20 += einsum("ijka->ikja", x14)
    .add 42 (.ein [(66, [0, 1, 2, 3])] [0, 2, 1, 3]) 1 1,
    -- 736: x20 += einsum("ijka->jkia", x14) * -2
    .add 42 (.ein [(66, [0, 1, 2, 3])] [1, 2, 0, 3]) (-2) 1,
    -- 737: del x14
    .del 66,
    -- 738: x52 += einsum("ia->ia", x13)
    .add 37 (.ein [(65, [0, 1])] [0, 1]) 1 1,
    -- 739: del x13
    .del 65,
    -- 740: x54 = np.zeros((nbos, nocc, nvir), dtype=types[float])
    .zeros 67 [2, 0, 1],
    -- 741: x54 += einsum("wia,ijba->wjb", u11, x12)
    .add 67 (.ein [(11, [0, 1, 2]), (64, [1, 3, 4, 2])] [0, 3, 4]) 1 1,
    -- 742: x63 = np.zeros((nocc, nvir), dtype=types[float])
    .zeros 68 [0, 1],
    -- 743: x63 += einsum("ia,ijba->jb", t1, x12) * 2
    .add 68 (.ein [(8, [0, 1]), (64, [0, 2, 3, 1])] [2, 3]) 2 1,
    -- 744: x64 += einsum("ia->ia", x63)
    .add 38 (.ein [(68, [0, 1])] [0, 1]) 1 1,
    -- 745: del x63
    .del 68,
    -- 746: x124 = np.zeros((nbos, nocc, nvir), dtype=types[float])
    .zeros 69 [2, 0, 1],
    -- 747: x124 += einsum("wia,ijba->wjb", u11, x12) * 2
    .add 69 (.ein [(11, [0, 1, 2]), (64, [1, 3, 4, 2])] [0, 3, 4]) 2 1,
    -- 748: x125 = np.zeros((nbos, nocc, nvir), dtype=types[float])
    .zeros 70 [2, 0, 1],
    -- 749: x125 += einsum("wia->wia", x124)
    .add 70 (.ein [(69, [0, 1, 2])] [0, 1, 2]) 1 1,
    -- 750: x194 = np.zeros((nbos, nocc, nvir), dtype=types[float])
    .zeros 71 [2, 0, 1],
    -- 751: x194 += einsum("wia->wia", x124)
    .add 71 (.ein [(69, [0, 1, 2])] [0, 1, 2]) 1 1,
    -- 752: x199 = np.zeros((nbos, nocc, nvir), dtype=types[float])
    .zeros 72 [2, 0, 1],
    -- 753: x199 += einsum("wia->wia", x124)
    .add 72 (.ein [(69, [0, 1, 2])] [0, 1, 2]) 1 1,
    -- 754: del x124
    .del 69,
    -- 755: x139 = np.zeros((nbos, nbos, nocc, nvir), dtype=types[float])
    .zeros 73 [2, 2, 0, 1],
    -- 756: x139 += einsum("wxia,ijba->wxjb", u12, x12)
    .add 73 (.ein [(12, [0, 1, 2, 3]), (64, [2, 4, 5, 3])] [0, 1, 4, 5]) 1 1,
    -- 757: del x12
    .del 64,
    -- 758: x140 = np.zeros((nocc, nocc, nvir, nvir), dtype=types[float])
    .zeros 74 [0, 0, 1, 1],
    -- 759: x140 += einsum("wxai,xwjb->jiba", lu12, x139)
    .add 74 (.ein [(13, [0, 1, 2, 3]), (73, [1, 0, 4, 5])] [4, 3, 5, 2]) 1 1,
    -- 760: del x139
    .del 73,
    -- 761: x145 = np.zeros((nocc, nocc, nvir, nvir), dtype=types[float])
    .zeros 75 [0, 0, 1, 1],
    -- 762: x145 += einsum("ijab->jiba", x140)
    .add 75 (.ein [(74, [0, 1, 2, 3])] [1, 0, 3, 2]) 1 1,
    -- 763: del x140
    .del 74,
    -- 764: x15 += einsum("ijka->jkia", v.ooov)
    .add 55 (.ein [(14, [0, 1, 2, 3])] [1, 2, 0, 3]) 1 1,
    -- 765: x15 += einsum("ijka->jika", v.ooov) * -0.5
    .add 55 (.ein [(14, [0, 1, 2, 3])] [1, 0, 2, 3]) (-1) 2,
    -- 766: x20 += einsum("ijab,kila->kljb", t2, x15)
    .add 42 (.ein [(6, [0, 1, 2, 3]), (55, [4, 0, 5, 2])] [4, 5, 1, 3]) 1 1,
    -- 767: del x15
    .del 55,
    -- 768: x16 += einsum("ijka->jkia", v.ooov) * -1
    .add 56 (.ein [(14, [0, 1, 2, 3])] [1, 2, 0, 3]) (-1) 1,
    -- 769: x16 += einsum("ijka->jika", v.ooov) * 2
    .add 56 (.ein [(14, [0, 1, 2, 3])] [1, 0, 2, 3]) 2 1,
    -- 770: x20 += einsum("ijab,kilb->klja", t2, x16) * 0.5
    .add 42 (.ein [(6, [0, 1, 2, 3]), (56, [4, 0, 5, 3])] [4, 5, 1, 2]) 1 2,
    -- 771: del x16
    .del 56,
    -- 772: x17 = np.zeros((nocc, nocc, nvir, nvir), dtype=types[float])
    .zeros 76 [0, 0, 1, 1],
    -- 773: x17 += einsum("ijab->ijab", v.oovv) * 2
    .add 76 (.ein [(15, [0, 1, 2, 3])] [0, 1, 2, 3]) 2 1,
    -- 774: x17 += einsum("iabj->ijba", v.ovvo) * -1
    .add 76 (.ein [(16, [0, 1, 2, 3])] [0, 3, 2, 1]) (-1) 1,
    -- 775: x20 += einsum("ia,jkba->ijkb", t1, x17) * -0.5
    .add 42 (.ein [(8, [0, 1]), (76, [2, 3, 4, 1])] [0, 2, 3, 4]) (-1) 2,
    -- 776: del x17
    .del 76,
    -- 777: x18 = np.zeros((nocc, nocc, nocc, nocc), dtype=types[float])
    .zeros 77 [0, 0, 0, 0],
    -- 778: x18 += einsum("ia,jkla->ijlk", t1, v.ooov)
    .add 77 (.ein [(8, [0, 1]), (14, [2, 3, 4, 1])] [0, 2, 4, 3]) 1 1,
    -- 779: x19 = np.zeros((nocc, nocc, nocc, nocc), dtype=types[float])
    .zeros 78 [0, 0, 0, 0],
    -- 780: x19 += einsum("ijkl->jkil", x18) * -0.5
    .add 78 (.ein [(77, [0, 1, 2, 3])] [1, 2, 0, 3]) (-1) 2,
    -- 781: x19 += einsum("ijkl->kjil", x18)
    .add 78 (.ein [(77, [0, 1, 2, 3])] [2, 1, 0, 3]) 1 1,
    -- 782: x27 = np.zeros((nocc, nocc, nocc, nocc), dtype=types[float])
    .zeros 79 [0, 0, 0, 0],
    -- 783: x27 -= einsum("ijkl->ikjl", x18)
    .add 79 (.ein [(77, [0, 1, 2, 3])] [0, 2, 1, 3]) (-1) 1,
    -- 784: x27 += einsum("ijkl->ijkl", x18) * 2
    .add 79 (.ein [(77, [0, 1, 2, 3])] [0, 1, 2, 3]) 2 1,
    -- 785: x28 = np.zeros((nocc, nocc, nocc, nvir), dtype=types[float])
    .zeros 80 [0, 0, 0, 1],
    -- 786: x28 += einsum("ia,jikl->jkla", t1, x27)
    .add 80 (.ein [(8, [0, 1]), (79, [2, 0, 3, 4])] [2, 3, 4, 1]) 1 1,
    -- 787: del x27
    .del 79,
    -- 788: x154 = np.zeros((nocc, nocc, nvir, nvir), dtype=types[float])
    .zeros 81 [0, 0, 1, 1],
    -- 789: x154 += einsum("abij,jkli->klba", l2, x18)
    .add 81 (.ein [(17, [0, 1, 2, 3]), (77, [3, 4, 5, 2])] [4, 5, 1, 0]) 1 1,
    -- 790: del x18
    .del 77,
    -- 791: x170 -= einsum("ijab->ijab", x154)
    .add 61 (.ein [(81, [0, 1, 2, 3])] [0, 1, 2, 3]) (-1) 1,
    -- 792: del x154
    .del 81,
    -- 793: x19 += einsum("ijkl->kijl", v.oooo) * -0.5
    .add 78 (.ein [(18, [0, 1, 2, 3])] [2, 0, 1, 3]) (-1) 2,
    -- 794: x19 += einsum("ijkl->kilj", v.oooo)
    .add 78 (.ein [(18, [0, 1, 2, 3])] [2, 0, 3, 1]) 1 1,
    -- 795: x20 += einsum("ia,ijkl->kjla", t1, x19)
    .add 42 (.ein [(8, [0, 1]), (78, [0, 2, 3, 4])] [3, 2, 4, 1]) 1 1,
    -- 796: del x19
    .del 78,
    -- 797: x20 += einsum("ijak->kija", v.oovo) * -1
    .add 42 (.ein [(19, [0, 1, 2, 3])] [3, 0, 1, 2]) (-1) 1,
    -- 798: x20 += einsum("ijak->jika", v.oovo) * 0.5
    .add 42 (.ein [(19, [0, 1, 2, 3])] [1, 0, 3, 2]) 1 2,
    -- 799: l1new = np.zeros((nvir, nocc), dtype=types[float])
    .zeros 82 [1, 0],
    -- 800: l1new += einsum("abij,ikja->bk", l2, x20) * 2
    .add 82 (.ein [(17, [0, 1, 2, 3]), (42, [2, 4, 3, 0])] [1, 4]) 2 1,
    -- 801: del x20
    .del 42,
    -- 802: x21 = np.zeros((nocc, nocc, nvir, nvir), dtype=types[float])
    .zeros 83 [0, 0, 1, 1],
    -- 803: x21 += einsum("abij->jiab", l2) * -1
    .add 83 (.ein [(17, [0, 1, 2, 3])] [3, 2, 0, 1]) (-1) 1,
    -- 804: x21 += einsum("abij->jiba", l2) * 2
    .add 83 (.ein [(17, [0, 1, 2, 3])] [3, 2, 1, 0]) 2 1,
    -- 805: x22 = np.zeros((nocc, nocc, nvir, nvir), dtype=types[float])
    .zeros 84 [0, 0, 1, 1],
    -- 806: x22 += einsum("ijab,ikac->kjcb", t2, x21) * -1
    .add 84 (.ein [(6, [0, 1, 2, 3]), (83, [0, 4, 2, 5])] [4, 1, 5, 3]) (-1) 1,
    -- 807: del x21
    .del 83,
    -- 808: x22 += einsum("wxai,wxjb->ijab", lu12, u12) * -0.5
    .add 84 (.ein [(13, [0, 1, 2, 3]), (12, [0, 1, 4, 5])] [3, 4, 2, 5]) (-1) 2,
    -- 809: x22 += einsum("abij,kjbc->ikac", l2, t2)
    .add 84 (.ein [(17, [0, 1, 2, 3]), (6, [4, 3, 1, 5])] [2, 4, 0, 5]) 1 1,
    -- 810: x23 = np.zeros((nocc, nvir, nvir, nvir), dtype=types[float])
    .zeros 85 [0, 1, 1, 1],
    -- 811: x23 -= einsum("iabc->ibac", v.ovvv)
    .add 85 (.ein [(7, [0, 1, 2, 3])] [0, 2, 1, 3]) (-1) 1,
    -- 812: x23 += einsum("iabc->ibca", v.ovvv) * 2
    .add 85 (.ein [(7, [0, 1, 2, 3])] [0, 2, 3, 1]) 2 1,
    -- 813: x123 = np.zeros((nbos, nvir, nvir), dtype=types[float])
    .zeros 86 [2, 1, 1],
    -- 814: x123 += einsum("wia,ibca->wbc", u11, x23)
    .add 86 (.ein [(11, [0, 1, 2]), (85, [1, 3, 4, 2])] [0, 3, 4]) 1 1,
    -- 815: x129 = np.zeros((nvir, nvir), dtype=types[float])
    .zeros 87 [1, 1],
    -- 816: x129 += einsum("ia,ibca->bc", t1, x23)
    .add 87 (.ein [(8, [0, 1]), (85, [0, 2, 3, 1])] [2, 3]) 1 1,
    -- 817: x130 = np.zeros((nvir, nvir), dtype=types[float])
    .zeros 88 [1, 1],
    -- 818: x130 += einsum("ab->ab", x129)
    .add 88 (.ein [(87, [0, 1])] [0, 1]) 1 1,
    -- 819: x187 = np.zeros((nocc, nocc, nvir, nvir), dtype=types[float])
    .zeros 89 [0, 0, 1, 1],
    -- 820: x187 += einsum("ab,acij->ijbc", x129, l2)
    .add 89 (.ein [(87, [0, 1]), (17, [0, 2, 3, 4])] [3, 4, 1, 2]) 1 1,
    -- 821: del x129
    .del 87,
    -- 822: x191 = np.zeros((nocc, nocc, nvir, nvir), dtype=types[float])
    .zeros 90 [0, 0, 1, 1],
    -- 823: x191 += einsum("ijab->jiba", x187)
    .add 90 (.ein [(89, [0, 1, 2, 3])] [1, 0, 3, 2]) 1 1,
    -- 824: del x187
    .del 89,
    -- 825: l1new += einsum("ijab,jacb->ci", x22, x23) * -1
    .add 82 (.ein [(84, [0, 1, 2, 3]), (85, [1, 2, 4, 3])] [4, 0]) (-1) 1,
    -- 826: del x22
    .del 84,
    -- 827: del x23
    .del 85,
    -- 828: x24 -= einsum("ijka->jkia", v.ooov)
    .add 57 (.ein [(14, [0, 1, 2, 3])] [1, 2, 0, 3]) (-1) 1,
    -- 829: x24 += einsum("ijka->jika", v.ooov) * 2
    .add 57 (.ein [(14, [0, 1, 2, 3])] [1, 0, 2, 3]) 2 1,
    -- 830: x25 = np.zeros((nocc, nocc, nvir, nvir), dtype=types[float])
    .zeros 91 [0, 0, 1, 1],
    -- 831: x25 += einsum("ijab->jiab", t2) * 2
    .add 91 (.ein [(6, [0, 1, 2, 3])] [1, 0, 2, 3]) 2 1,
    -- 832: x25 -= einsum("ijab->jiba", t2)
    .add 91 (.ein [(6, [0, 1, 2, 3])] [1, 0, 3, 2]) (-1) 1,
    -- 833: x28 -= einsum("ijka,klba->ijlb", x24, x25)
    .add 80 (.ein [(57, [0, 1, 2, 3]), (91, [2, 4, 5, 3])] [0, 1, 4, 5]) (-1) 1,
    -- 834: del x24
    .del 57,
    -- 835: x224 = np.zeros((nbos, nocc, nvir), dtype=types[float])
    .zeros 92 [2, 0, 1],
    -- 836: x224 += einsum("wia,ijba->wjb", g.bov, x25)
    .add 92 (.ein [(2, [0, 1, 2]), (91, [1, 3, 4, 2])] [0, 3, 4]) 1 1,
    -- 837: x225 = np.zeros((nbos, nocc, nvir), dtype=types[float])
    .zeros 93 [2, 0, 1],
    -- 838: x225 += einsum("wia->wia", x224)
    .add 93 (.ein [(92, [0, 1, 2])] [0, 1, 2]) 1 1,
    -- 839: del x224
    .del 92,
    -- 840: x237 = np.zeros((nbos, nbos, nocc, nvir), dtype=types[float])
    .zeros 94 [2, 2, 0, 1],
    -- 841: x237 += einsum("wxai,ijba->xwjb", lu12, x25)
    .add 94 (.ein [(13, [0, 1, 2, 3]), (91, [3, 4, 5, 2])] [1, 0, 4, 5]) 1 1,
    -- 842: del x25
    .del 91,
    -- 843: x26 = np.zeros((nocc, nocc, nvir, nvir), dtype=types[float])
    .zeros 95 [0, 0, 1, 1],
    -- 844: x26 += einsum("iabj->ijba", v.ovvo) * 2
    .add 95 (.ein [(16, [0, 1, 2, 3])] [0, 3, 2, 1]) 2 1,
    -- 845: x26 -= einsum("ijab->ijab", v.oovv)
    .add 95 (.ein [(15, [0, 1, 2, 3])] [0, 1, 2, 3]) (-1) 1,
    -- 846: x28 -= einsum("ia,jkba->ijkb", t1, x26)
    .add 80 (.ein [(8, [0, 1]), (95, [2, 3, 4, 1])] [0, 2, 3, 4]) (-1) 1,
    -- 847: l1new += einsum("abij,ikjb->ak", l2, x28)
    .add 82 (.ein [(17, [0, 1, 2, 3]), (80, [2, 4, 3, 1])] [0, 4]) 1 1,
    -- 848: del x28
    .del 80,
    -- 849: l1new += einsum("ai,jiab->bj", l1, x26)
    .add 82 (.ein [(10, [0, 1]), (95, [2, 1, 0, 3])] [3, 2]) 1 1,
    -- 850: lu11new = np.zeros((nbos, nvir, nocc), dtype=types[float])
    .zeros 96 [2, 1, 0],
    -- 851: lu11new += einsum("wai,jiab->wbj", lu11, x26)
    .add 96 (.ein [(20, [0, 1, 2]), (95, [3, 2, 1, 4])] [0, 4, 3]) 1 1,
    -- 852: del x26
    .del 95,
    -- 853: x29 = np.zeros((nocc, nvir, nvir, nvir), dtype=types[float])
    .zeros 97 [0, 1, 1, 1],
    -- 854: x29 += einsum("ia,bcda->ibdc", t1, v.vvvv)
    .add 97 (.ein [(8, [0, 1]), (21, [2, 3, 4, 1])] [0, 2, 4, 3]) 1 1,
    -- 855: x30 = np.zeros((nocc, nvir, nvir, nvir), dtype=types[float])
    .zeros 98 [0, 1, 1, 1],
    -- 856: x30 += einsum("iabc->iabc", x29)
    .add 98 (.ein [(97, [0, 1, 2, 3])] [0, 1, 2, 3]) 1 1,
    -- 857: x30 += einsum("iabc->ibac", x29) * -0.5
    .add 98 (.ein [(97, [0, 1, 2, 3])] [0, 2, 1, 3]) (-1) 2,
    -- 858: del x29
    .del 97,
    -- 859: x30 += einsum("aibc->iabc", v.vovv) * -0.5
    .add 98 (.ein [(22, [0, 1, 2, 3])] [1, 0, 2, 3]) (-1) 2,
    -- 860: x30 += einsum("aibc->ibac", v.vovv)
    .add 98 (.ein [(22, [0, 1, 2, 3])] [1, 2, 0, 3]) 1 1,
    -- 861: l1new += einsum("abij,ibac->cj", l2, x30) * 2
    .add 82 (.ein [(17, [0, 1, 2, 3]), (98, [2, 1, 0, 4])] [4, 3]) 2 1,
    -- 862: del x30
    .del 98,
    -- 863: x31 = np.zeros((nbos, nbos, nocc, nocc), dtype=types[float])
    .zeros 99 [2, 2, 0, 0],
    -- 864: x31 += einsum("ia,wxaj->wxji", t1, lu12)
    .add 99 (.ein [(8, [0, 1]), (13, [2, 3, 1, 4])] [2, 3, 4, 0]) 1 1,
    -- 865: x34 = np.zeros((nocc, nocc, nocc, nvir), dtype=types[float])
    .zeros 100 [0, 0, 0, 1],
    -- 866: x34 += einsum("wxia,wxjk->jkia", u12, x31) * -0.25
    .add 100 (.ein [(12, [0, 1, 2, 3]), (99, [0, 1, 4, 5])] [4, 5, 2, 3]) (-1) 4,
    -- 867: x86 = np.zeros((nocc, nvir), dtype=types[float])
    .zeros 101 [0, 1],
    -- 868: x86 += einsum("wxia,wxij->ja", u12, x31)
    .add 101 (.ein [(12, [0, 1, 2, 3]), (99, [0, 1, 2, 4])] [4, 3]) 1 1,
    -- 869: x99 = np.zeros((nocc, nvir), dtype=types[float])
    .zeros 102 [0, 1],
    -- 870: x99 += einsum("ia->ia", x86) * 0.5
    .add 102 (.ein [(101, [0, 1])] [0, 1]) 1 2,
    -- 871: del x86
    .del 101,
    -- 872: x221 = np.zeros((nbos, nocc, nvir), dtype=types[float])
    .zeros 103 [2, 0, 1],
    -- 873: x221 += einsum("wia,xwij->xja", u11, x31)
    .add 103 (.ein [(11, [0, 1, 2]), (99, [3, 0, 1, 4])] [3, 4, 2]) 1 1,
    -- 874: x222 = np.zeros((nbos, nbos), dtype=types[float])
    .zeros 104 [2, 2],
    -- 875: x222 += einsum("wia,xia->wx", g.bov, x221)
    .add 104 (.ein [(2, [0, 1, 2]), (103, [3, 1, 2])] [0, 3]) 1 1,
    -- 876: del x221
    .del 103,
    -- 877: x228 = np.zeros((nbos, nbos), dtype=types[float])
    .zeros 105 [2, 2],
    -- 878: x228 -= einsum("wx->wx", x222) * 2
    .add 105 (.ein [(104, [0, 1])] [0, 1]) (-2) 1,
    -- 879: del x222
    .del 104,
    -- 880: lu12new = np.zeros((nbos, nbos, nvir, nocc), dtype=types[float])
    .zeros 106 [2, 2, 1, 0],
    -- 881: lu12new -= einsum("ijka,wxik->xwaj", x239, x31)
    .add 106 (.ein [(63, [0, 1, 2, 3]), (99, [4, 5, 0, 2])] [5, 4, 3, 1]) (-1) 1,
    -- 882: del x239
    .del 63,
    -- 883: x32 = np.zeros((nocc, nocc, nocc, nvir), dtype=types[float])
    .zeros 107 [0, 0, 0, 1],
    -- 884: x32 += einsum("ia,bajk->jkib", t1, l2)
    .add 107 (.ein [(8, [0, 1]), (17, [2, 1, 3, 4])] [3, 4, 0, 2]) 1 1,
    -- 885: x34 += einsum("ijab,kjlb->klia", t2, x32) * 0.5
    .add 100 (.ein [(6, [0, 1, 2, 3]), (107, [4, 1, 5, 3])] [4, 5, 0, 2]) 1 2,
    -- 886: x36 = np.zeros((nocc, nocc, nocc, nvir), dtype=types[float])
    .zeros 108 [0, 0, 0, 1],
    -- 887: x36 -= einsum("ijka->ijka", x32)
    .add 108 (.ein [(107, [0, 1, 2, 3])] [0, 1, 2, 3]) (-1) 1,
    -- 888: x36 += einsum("ijka->jika", x32) * 2
    .add 108 (.ein [(107, [0, 1, 2, 3])] [1, 0, 2, 3]) 2 1,
    -- 889: x38 = np.zeros((nocc, nocc, nocc, nvir), dtype=types[float])
    .zeros 109 [0, 0, 0, 1],
    -- 890: x38 += einsum("ijka->ijka", x32) * 2
    .add 109 (.ein [(107, [0, 1, 2, 3])] [0, 1, 2, 3]) 2 1,
    -- 891: x38 -= einsum("ijka->jika", x32)
    .add 109 (.ein [(107, [0, 1, 2, 3])] [1, 0, 2, 3]) (-1) 1,
    -- 892: x43 = np.zeros((nocc, nocc, nocc, nvir), dtype=types[float])
    .zeros 110 [0, 0, 0, 1],
    -- 893: x43 += einsum("ijab,kjla->klib", t2, x32)
    .add 110 (.ein [(6, [0, 1, 2, 3]), (107, [4, 1, 5, 2])] [4, 5, 0, 3]) 1 1,
    -- 894: x45 = np.zeros((nocc, nocc, nocc, nvir), dtype=types[float])
    .zeros 111 [0, 0, 0, 1],
    -- 895: x45 += einsum("ijka->ijka", x43) * 2
    .add 111 (.ein [(110, [0, 1, 2, 3])] [0, 1, 2, 3]) 2 1,
    -- 896: x50 = np.zeros((nocc, nocc, nocc, nvir), dtype=types[float])
    .zeros 112 [0, 0, 0, 1],
    -- 897: x50 += einsum("ijka->ijka", x43)
    .add 112 (.ein [(110, [0, 1, 2, 3])] [0, 1, 2, 3]) 1 1,
    -- 898: del x43
    .del 110,
    -- 899: x47 = np.zeros((nocc, nocc, nocc, nocc), dtype=types[float])
    .zeros 113 [0, 0, 0, 0],
    -- 900: x47 += einsum("ia,jkla->jkil", t1, x32)
    .add 113 (.ein [(8, [0, 1]), (107, [2, 3, 4, 1])] [2, 3, 0, 4]) 1 1,
    -- 901: x48 = np.zeros((nocc, nocc, nocc, nocc), dtype=types[float])
    .zeros 114 [0, 0, 0, 0],
    -- 902: x48 += einsum("ijkl->ijkl", x47)
    .add 114 (.ein [(113, [0, 1, 2, 3])] [0, 1, 2, 3]) 1 1,
    -- 903: x57 = np.zeros((nocc, nocc, nocc, nocc), dtype=types[float])
    .zeros 115 [0, 0, 0, 0],
    -- 904: x57 += einsum("ijkl->ijkl", x47) * 2
    .add 115 (.ein [(113, [0, 1, 2, 3])] [0, 1, 2, 3]) 2 1,
    -- 905: x57 += einsum("ijkl->ijlk", x47) * -1
    .add 115 (.ein [(113, [0, 1, 2, 3])] [0, 1, 3, 2]) (-1) 1,
    -- 906: l1new += einsum("ijka,ljki->al", v.ooov, x57)
    .add 82 (.ein [(14, [0, 1, 2, 3]), (115, [4, 1, 2, 0])] [3, 4]) 1 1,
    -- 907: del x57
    .del 115,
    -- 908: x193 = np.zeros((nocc, nocc, nocc, nocc), dtype=types[float])
    .zeros 116 [0, 0, 0, 0],
    -- 909: x193 += einsum("ijkl->ijkl", x47)
    .add 116 (.ein [(113, [0, 1, 2, 3])] [0, 1, 2, 3]) 1 1,
    -- 910: del x47
    .del 113,
    -- 911: x173 = np.zeros((nocc, nocc, nvir, nvir), dtype=types[float])
    .zeros 117 [0, 0, 1, 1],
    -- 912: x173 += einsum("iabc,jkib->kjac", v.ovvv, x32)
    .add 117 (.ein [(7, [0, 1, 2, 3]), (107, [4, 5, 0, 2])] [5, 4, 1, 3]) 1 1,
    -- 913: x191 -= einsum("ijab->ijab", x173)
    .add 90 (.ein [(117, [0, 1, 2, 3])] [0, 1, 2, 3]) (-1) 1,
    -- 914: del x173
    .del 117,
    -- 915: x33 = np.zeros((nocc, nocc, nvir, nvir), dtype=types[float])
    .zeros 118 [0, 0, 1, 1],
    -- 916: x33 += einsum("ijab->jiab", t2) * 2
    .add 118 (.ein [(6, [0, 1, 2, 3])] [1, 0, 2, 3]) 2 1,
    -- 917: x33 += einsum("ijab->jiba", t2) * -1
    .add 118 (.ein [(6, [0, 1, 2, 3])] [1, 0, 3, 2]) (-1) 1,
    -- 918: x34 += einsum("ijka,ilba->jklb", x32, x33) * -0.5
    .add 100 (.ein [(107, [0, 1, 2, 3]), (118, [0, 4, 5, 3])] [1, 2, 4, 5]) (-1) 2,
    -- 919: x88 = np.zeros((nocc, nvir), dtype=types[float])
    .zeros 119 [0, 1],
    -- 920: x88 += einsum("ai,ijba->jb", l1, x33)
    .add 119 (.ein [(10, [0, 1]), (118, [1, 2, 3, 0])] [2, 3]) 1 1,
    -- 921: x99 += einsum("ia->ia", x88) * -1
    .add 102 (.ein [(119, [0, 1])] [0, 1]) (-1) 1,
    -- 922: del x88
    .del 119,
    -- 923: x35 = np.zeros((nocc, nocc, nvir, nvir), dtype=types[float])
    .zeros 120 [0, 0, 1, 1],
    -- 924: x35 -= einsum("iajb->jiab", v.ovov)
    .add 120 (.ein [(9, [0, 1, 2, 3])] [2, 0, 1, 3]) (-1) 1,
    -- 925: x35 += einsum("iajb->jiba", v.ovov) * 2
    .add 120 (.ein [(9, [0, 1, 2, 3])] [2, 0, 3, 1]) 2 1,
    -- 926: l1new += einsum("ijka,jkba->bi", x34, x35) * 2
    .add 82 (.ein [(100, [0, 1, 2, 3]), (120, [1, 2, 4, 3])] [4, 0]) 2 1,
    -- 927: del x34
    .del 100,
    -- 928: del x35
    .del 120,
    -- 929: x37 += einsum("iabj->ijba", v.ovvo)
    .add 47 (.ein [(16, [0, 1, 2, 3])] [0, 3, 2, 1]) 1 1,
    -- 930: l1new -= einsum("ijka,kjab->bi", x36, x37)
    .add 82 (.ein [(108, [0, 1, 2, 3]), (47, [2, 1, 3, 4])] [4, 0]) (-1) 1,
    -- 931: del x36
    .del 108,
    -- 932: del x37
    .del 47,
    -- 933: x39 = np.zeros((nocc, nocc, nvir, nvir), dtype=types[float])
    .zeros 121 [0, 0, 1, 1],
    -- 934: x39 += einsum("ia,jabc->ijbc", t1, v.ovvv)
    .add 121 (.ein [(8, [0, 1]), (7, [2, 1, 3, 4])] [0, 2, 3, 4]) 1 1,
    -- 935: x40 = np.zeros((nocc, nocc, nvir, nvir), dtype=types[float])
    .zeros 122 [0, 0, 1, 1],
    -- 936: x40 += einsum("ijab->jiab", x39)
    .add 122 (.ein [(121, [0, 1, 2, 3])] [1, 0, 2, 3]) 1 1,
    -- 937: x156 = np.zeros((nocc, nocc, nvir, nvir), dtype=types[float])
    .zeros 123 [0, 0, 1, 1],
    -- 938: x156 += einsum("ijab->ijab", x39)
    .add 123 (.ein [(121, [0, 1, 2, 3])] [0, 1, 2, 3]) 1 1,
    -- 939: del x39
    .del 121,
    -- 940: x40 += einsum("ijab->ijab", v.oovv)
    .add 122 (.ein [(15, [0, 1, 2, 3])] [0, 1, 2, 3]) 1 1,
    -- 941: l1new -= einsum("ijka,kjab->bi", x38, x40)
    .add 82 (.ein [(109, [0, 1, 2, 3]), (122, [2, 1, 3, 4])] [4, 0]) (-1) 1,
    -- 942: del x40
    .del 122,
    -- 943: x41 = np.zeros((nocc, nvir, nvir, nvir), dtype=types[float])
    .zeros 124 [0, 1, 1, 1],
    -- 944: x41 += einsum("iabc->ibac", v.ovvv) * 2
    .add 124 (.ein [(7, [0, 1, 2, 3])] [0, 2, 1, 3]) 2 1,
    -- 945: x41 -= einsum("iabc->ibca", v.ovvv)
    .add 124 (.ein [(7, [0, 1, 2, 3])] [0, 2, 3, 1]) (-1) 1,
    -- 946: x238 = np.zeros((nocc, nocc, nvir, nvir), dtype=types[float])
    .zeros 125 [0, 0, 1, 1],
    -- 947: x238 += einsum("ia,jbca->jibc", t1, x41)
    .add 125 (.ein [(8, [0, 1]), (124, [2, 3, 4, 1])] [2, 0, 3, 4]) 1 1,
    -- 948: x42 = np.zeros((nocc, nocc, nvir, nvir), dtype=types[float])
    .zeros 126 [0, 0, 1, 1],
    -- 949: x42 += einsum("abij,kjac->ikbc", l2, t2)
    .add 126 (.ein [(17, [0, 1, 2, 3]), (6, [4, 3, 0, 5])] [2, 4, 1, 5]) 1 1,
    -- 950: l1new -= einsum("iabc,jiac->bj", x41, x42)
    .add 82 (.ein [(124, [0, 1, 2, 3]), (126, [4, 0, 1, 3])] [2, 4]) (-1) 1,
    -- 951: del x41
    .del 124,
    -- 952: del x42
    .del 126,
    -- 953: x44 = np.zeros((nocc, nocc, nocc, nvir), dtype=types[float])
    .zeros 127 [0, 0, 0, 1],
    -- 954: x44 += einsum("ai,jkba->ijkb", l1, t2)
    .add 127 (.ein [(10, [0, 1]), (6, [2, 3, 4, 0])] [1, 2, 3, 4]) 1 1,
    -- 955: x45 += einsum("ijka->ikja", x44)
    .add 111 (.ein [(127, [0, 1, 2, 3])] [0, 2, 1, 3]) 1 1,
    -- 956: x45 += einsum("ijka->ijka", x44) * -2
    .add 111 (.ein [(127, [0, 1, 2, 3])] [0, 1, 2, 3]) (-2) 1,
    -- 957: del x44
    .del 127,
    -- 958: l1new += einsum("iajb,kija->bk", v.ovov, x45)
    .add 82 (.ein [(9, [0, 1, 2, 3]), (111, [4, 0, 2, 1])] [3, 4]) 1 1,
    -- 959: del x45
    .del 111,
    -- 960: x46 = np.zeros((nocc, nocc, nocc, nocc), dtype=types[float])
    .zeros 128 [0, 0, 0, 0],
    -- 961: x46 += einsum("abij,klba->ijlk", l2, t2)
    .add 128 (.ein [(17, [0, 1, 2, 3]), (6, [4, 5, 1, 0])] [2, 3, 5, 4]) 1 1,
    -- 962: x48 += einsum("ijkl->jilk", x46)
    .add 114 (.ein [(128, [0, 1, 2, 3])] [1, 0, 3, 2]) 1 1,
    -- 963: x49 = np.zeros((nocc, nocc, nocc, nvir), dtype=types[float])
    .zeros 129 [0, 0, 0, 1],
    -- 964: x49 += einsum("ia,ijkl->jkla", t1, x48)
    .add 129 (.ein [(8, [0, 1]), (114, [0, 2, 3, 4])] [2, 3, 4, 1]) 1 1,
    -- 965: del x48
    .del 114,
    -- 966: x50 += einsum("ijka->ijka", x49)
    .add 112 (.ein [(129, [0, 1, 2, 3])] [0, 1, 2, 3]) 1 1,
    -- 967: x50 += einsum("ijka->ikja", x49) * -2
    .add 112 (.ein [(129, [0, 1, 2, 3])] [0, 2, 1, 3]) (-2) 1,
    -- 968: del x49
    .del 129,
    -- 969: l1new += einsum("iajb,kijb->ak", v.ovov, x50) * -1
    .add 82 (.ein [(9, [0, 1, 2, 3]), (112, [4, 0, 2, 3])] [1, 4]) (-1) 1,
    -- 970: del x50
    .del 112,
    -- 971: x56 = np.zeros((nocc, nocc, nocc, nocc), dtype=types[float])
    .zeros 130 [0, 0, 0, 0],
    -- 972: x56 += einsum("ijkl->jikl", x46) * 2
    .add 130 (.ein [(128, [0, 1, 2, 3])] [1, 0, 2, 3]) 2 1,
    -- 973: x56 += einsum("ijkl->jilk", x46) * -1
    .add 130 (.ein [(128, [0, 1, 2, 3])] [1, 0, 3, 2]) (-1) 1,
    -- 974: l1new += einsum("ijka,jlki->al", v.ooov, x56)
    .add 82 (.ein [(14, [0, 1, 2, 3]), (130, [1, 4, 2, 0])] [3, 4]) 1 1,
    -- 975: del x56
    .del 130,
    -- 976: x193 += einsum("ijkl->jilk", x46)
    .add 116 (.ein [(128, [0, 1, 2, 3])] [1, 0, 3, 2]) 1 1,
    -- 977: del x46
    .del 128,
    -- 978: l2new = np.zeros((nvir, nvir, nocc, nocc), dtype=types[float])
    .zeros 131 [1, 1, 0, 0],
    -- 979: l2new += einsum("iajb,klji->ablk", v.ovov, x193)
    .add 131 (.ein [(9, [0, 1, 2, 3]), (116, [4, 5, 2, 0])] [1, 3, 5, 4]) 1 1,
    -- 980: del x193
    .del 116,
    -- 981: x51 += einsum("ijka->ikja", v.ooov)
    .add 58 (.ein [(14, [0, 1, 2, 3])] [0, 2, 1, 3]) 1 1,
    -- 982: x51 += einsum("ijka->kija", v.ooov) * -0.5
    .add 58 (.ein [(14, [0, 1, 2, 3])] [2, 0, 1, 3]) (-1) 2,
    -- 983: x55 = np.zeros((nbos, nbos, nocc, nocc), dtype=types[float])
    .zeros 132 [2, 2, 0, 0],
    -- 984: x55 += einsum("wxia,jika->xwjk", u12, x51)
    .add 132 (.ein [(12, [0, 1, 2, 3]), (58, [4, 2, 5, 3])] [1, 0, 4, 5]) 1 1,
    -- 985: del x51
    .del 58,
    -- 986: x52 += einsum("ia->ia", f.ov) * 0.5
    .add 37 (.ein [(5, [0, 1])] [0, 1]) 1 2,
    -- 987: x55 += einsum("ia,wxja->xwij", x52, u12)
    .add 132 (.ein [(37, [0, 1]), (12, [2, 3, 4, 1])] [3, 2, 0, 4]) 1 1,
    -- 988: x74 = np.zeros((nocc, nocc), dtype=types[float])
    .zeros 133 [0, 0],
    -- 989: x74 += einsum("ia,ja->ji", t1, x52) * 2
    .add 133 (.ein [(8, [0, 1]), (37, [2, 1])] [2, 0]) 2 1,
    -- 990: x75 = np.zeros((nocc, nocc), dtype=types[float])
    .zeros 134 [0, 0],
    -- 991: x75 += einsum("ij->ij", x74)
    .add 134 (.ein [(133, [0, 1])] [0, 1]) 1 1,
    -- 992: del x74
    .del 133,
    -- 993: x128 = np.zeros((nbos, nbos), dtype=types[float])
    .zeros 135 [2, 2],
    -- 994: x128 += einsum("ia,wxia->xw", x52, u12) * 2
    .add 135 (.ein [(37, [0, 1]), (12, [2, 3, 0, 1])] [3, 2]) 2 1,
    -- 995: x200 = np.zeros((nbos, nocc, nocc), dtype=types[float])
    .zeros 136 [2, 0, 0],
    -- 996: x200 += einsum("ia,wja->wij", x52, u11) * 2
    .add 136 (.ein [(37, [0, 1]), (11, [2, 3, 1])] [2, 0, 3]) 2 1,
    -- 997: lu11new += einsum("w,ia->wai", ls1, x52) * 4
    .add 96 (.ein [(23, [0]), (37, [1, 2])] [0, 2, 1]) 4 1,
    -- 998: del x52
    .del 37,
    -- 999: x53 = np.zeros((nbos, nocc, nvir), dtype=types[float])
    .zeros 137 [2, 0, 1],
    -- 1000: x53 += einsum("wx,xia->wia", s2, g.bov)
    .add 137 (.ein [(24, [0, 1]), (2, [1, 2, 3])] [0, 2, 3]) 1 1,
    -- 1001: x54 += einsum("wia->wia", x53) * 0.5
    .add 67 (.ein [(137, [0, 1, 2])] [0, 1, 2]) 1 2,
    -- 1002: x194 += einsum("wia->wia", x53)
    .add 71 (.ein [(137, [0, 1, 2])] [0, 1, 2]) 1 1,
    -- 1003: del x53
    .del 137,
    -- 1004: x54 += einsum("wia->wia", gc.bov) * 0.5
    .add 67 (.ein [(32, [0, 1, 2])] [0, 1, 2]) 1 2,
    -- 1005: x55 += einsum("wia,xja->wxji", u11, x54) * 2
    .add 132 (.ein [(11, [0, 1, 2]), (67, [3, 4, 2])] [0, 3, 4, 1]) 2 1,
    -- 1006: del x54
    .del 67,
    -- 1007: l1new += einsum("wxai,wxji->aj", lu12, x55) * -1
    .add 82 (.ein [(13, [0, 1, 2, 3]), (132, [0, 1, 4, 3])] [2, 4]) (-1) 1,
    -- 1008: del x55
    .del 132,
    -- 1009: x58 = np.zeros((nocc, nvir), dtype=types[float])
    .zeros 138 [0, 1],
    -- 1010: x58 += einsum("w,wai->ia", s1, g.bvo)
    .add 138 (.ein [(4, [0]), (1, [0, 1, 2])] [2, 1]) 1 1,
    -- 1011: x82 = np.zeros((nocc, nvir), dtype=types[float])
    .zeros 139 [0, 1],
    -- 1012: x82 += einsum("ia->ia", x58)
    .add 139 (.ein [(138, [0, 1])] [0, 1]) 1 1,
    -- 1013: x213 = np.zeros((nocc, nvir), dtype=types[float])
    .zeros 140 [0, 1],
    -- 1014: x213 += einsum("ia->ia", x58) * 0.5
    .add 140 (.ein [(138, [0, 1])] [0, 1]) 1 2,
    -- 1015: del x58
    .del 138,
    -- 1016: x59 = np.zeros((nocc, nvir), dtype=types[float])
    .zeros 141 [0, 1],
    -- 1017: x59 += einsum("wab,wib->ia", g.bvv, u11)
    .add 141 (.ein [(3, [0, 1, 2]), (11, [0, 3, 2])] [3, 1]) 1 1,
    -- 1018: x82 += einsum("ia->ia", x59)
    .add 139 (.ein [(141, [0, 1])] [0, 1]) 1 1,
    -- 1019: x213 += einsum("ia->ia", x59) * 0.5
    .add 140 (.ein [(141, [0, 1])] [0, 1]) 1 2,
    -- 1020: del x59
    .del 141,
    -- 1021: x60 = np.zeros((nocc, nvir), dtype=types[float])
    .zeros 142 [0, 1],
    -- 1022: x60 += einsum("ijab,jkib->ka", t2, v.ooov)
    .add 142 (.ein [(6, [0, 1, 2, 3]), (14, [1, 4, 0, 3])] [4, 2]) 1 1,
    -- 1023: x82 += einsum("ia->ia", x60)
    .add 139 (.ein [(142, [0, 1])] [0, 1]) 1 1,
    -- 1024: x213 += einsum("ia->ia", x60) * 0.5
    .add 140 (.ein [(142, [0, 1])] [0, 1]) 1 2,
    -- 1025: del x60
    .del 142,
    -- 1026: x61 = np.zeros((nocc, nocc, nvir, nvir), dtype=types[float])
    .zeros 143 [0, 0, 1, 1],
    -- 1027: x61 += einsum("ijab->jiab", t2) * -0.5
    .add 143 (.ein [(6, [0, 1, 2, 3])] [1, 0, 2, 3]) (-1) 2,
    -- 1028: x61 += einsum("ijab->jiba", t2)
    .add 143 (.ein [(6, [0, 1, 2, 3])] [1, 0, 3, 2]) 1 1,
    -- 1029: x71 = np.zeros((nocc, nocc), dtype=types[float])
    .zeros 144 [0, 0],
    -- 1030: x71 += einsum("iajb,ikab->kj", v.ovov, x61) * 2
    .add 144 (.ein [(9, [0, 1, 2, 3]), (143, [0, 4, 1, 3])] [4, 2]) 2 1,
    -- 1031: x75 += einsum("ij->ji", x71)
    .add 134 (.ein [(144, [0, 1])] [1, 0]) 1 1,
    -- 1032: del x71
    .del 144,
    -- 1033: x82 += einsum("iabc,ijac->jb", v.ovvv, x61) * 2
    .add 139 (.ein [(7, [0, 1, 2, 3]), (143, [0, 4, 1, 3])] [4, 2]) 2 1,
    -- 1034: x96 = np.zeros((nocc, nocc), dtype=types[float])
    .zeros 145 [0, 0],
    -- 1035: x96 += einsum("abij,ikab->kj", l2, x61) * 2
    .add 145 (.ein [(17, [0, 1, 2, 3]), (143, [2, 4, 0, 1])] [4, 3]) 2 1,
    -- 1036: x97 = np.zeros((nocc, nocc), dtype=types[float])
    .zeros 146 [0, 0],
    -- 1037: x97 += einsum("ij->ji", x96)
    .add 146 (.ein [(145, [0, 1])] [1, 0]) 1 1,
    -- 1038: x148 = np.zeros((nocc, nocc), dtype=types[float])
    .zeros 147 [0, 0],
    -- 1039: x148 += einsum("ij->ji", x96)
    .add 147 (.ein [(145, [0, 1])] [1, 0]) 1 1,
    -- 1040: x215 = np.zeros((nocc, nocc), dtype=types[float])
    .zeros 148 [0, 0],
    -- 1041: x215 += einsum("ij->ji", x96)
    .add 148 (.ein [(145, [0, 1])] [1, 0]) 1 1,
    -- 1042: del x96
    .del 145,
    -- 1043: x104 = np.zeros((nvir, nvir), dtype=types[float])
    .zeros 149 [1, 1],
    -- 1044: x104 += einsum("abij,ijac->cb", l2, x61) * 2
    .add 149 (.ein [(17, [0, 1, 2, 3]), (143, [2, 3, 0, 4])] [4, 1]) 2 1,
    -- 1045: x105 = np.zeros((nvir, nvir), dtype=types[float])
    .zeros 150 [1, 1],
    -- 1046: x105 += einsum("ab->ba", x104)
    .add 150 (.ein [(149, [0, 1])] [1, 0]) 1 1,
    -- 1047: x146 = np.zeros((nvir, nvir), dtype=types[float])
    .zeros 151 [1, 1],
    -- 1048: x146 += einsum("ab->ba", x104)
    .add 151 (.ein [(149, [0, 1])] [1, 0]) 1 1,
    -- 1049: del x104
    .del 149,
    -- 1050: x141 = np.zeros((nvir, nvir), dtype=types[float])
    .zeros 152 [1, 1],
    -- 1051: x141 += einsum("iajb,ijcb->ca", v.ovov, x61) * 2
    .add 152 (.ein [(9, [0, 1, 2, 3]), (143, [0, 2, 4, 3])] [4, 1]) 2 1,
    -- 1052: x142 = np.zeros((nocc, nocc, nvir, nvir), dtype=types[float])
    .zeros 153 [0, 0, 1, 1],
    -- 1053: x142 += einsum("ab,acij->ijbc", x141, l2)
    .add 153 (.ein [(152, [0, 1]), (17, [0, 2, 3, 4])] [3, 4, 1, 2]) 1 1,
    -- 1054: del x141
    .del 152,
    -- 1055: x145 += einsum("ijab->jiba", x142) * -1
    .add 75 (.ein [(153, [0, 1, 2, 3])] [1, 0, 3, 2]) (-1) 1,
    -- 1056: del x142
    .del 153,
    -- 1057: x205 = np.zeros((nocc, nvir), dtype=types[float])
    .zeros 154 [0, 1],
    -- 1058: x205 += einsum("iabc,ijac->jb", v.ovvv, x61)
    .add 154 (.ein [(7, [0, 1, 2, 3]), (143, [0, 4, 1, 3])] [4, 2]) 1 1,
    -- 1059: x213 += einsum("ia->ia", x205)
    .add 140 (.ein [(154, [0, 1])] [0, 1]) 1 1,
    -- 1060: del x205
    .del 154,
    -- 1061: x214 = np.zeros((nvir, nvir), dtype=types[float])
    .zeros 155 [1, 1],
    -- 1062: x214 += einsum("abij,ijac->bc", l2, x61) * 4
    .add 155 (.ein [(17, [0, 1, 2, 3]), (143, [2, 3, 0, 4])] [1, 4]) 4 1,
    -- 1063: del x61
    .del 143,
    -- 1064: x62 += einsum("ijka->ikja", v.ooov) * 2
    .add 59 (.ein [(14, [0, 1, 2, 3])] [0, 2, 1, 3]) 2 1,
    -- 1065: x82 += einsum("ijab,ijkb->ka", t2, x62) * -1
    .add 139 (.ein [(6, [0, 1, 2, 3]), (59, [0, 1, 4, 3])] [4, 2]) (-1) 1,
    -- 1066: x206 = np.zeros((nocc, nvir), dtype=types[float])
    .zeros 156 [0, 1],
    -- 1067: x206 += einsum("ijab,ijkb->ka", t2, x62) * 0.5
    .add 156 (.ein [(6, [0, 1, 2, 3]), (59, [0, 1, 4, 3])] [4, 2]) 1 2,
    -- 1068: del x62
    .del 59,
    -- 1069: x213 += einsum("ia->ia", x206) * -1
    .add 140 (.ein [(156, [0, 1])] [0, 1]) (-1) 1,
    -- 1070: del x206
    .del 156,
    -- 1071: x64 += einsum("ia->ia", f.ov)
    .add 38 (.ein [(5, [0, 1])] [0, 1]) 1 1,
    -- 1072: lu12new += einsum("wx,ia->xwai", ls2, x64) * 2
    .add 106 (.ein [(25, [0, 1]), (38, [2, 3])] [1, 0, 3, 2]) 2 1,
    -- 1073: x65 = np.zeros((nocc, nocc, nvir, nvir), dtype=types[float])
    .zeros 157 [0, 0, 1, 1],
    -- 1074: x65 += einsum("ijab->jiab", t2)
    .add 157 (.ein [(6, [0, 1, 2, 3])] [1, 0, 2, 3]) 1 1,
    -- 1075: x65 += einsum("ijab->jiba", t2) * -0.5
    .add 157 (.ein [(6, [0, 1, 2, 3])] [1, 0, 3, 2]) (-1) 2,
    -- 1076: x82 += einsum("ia,ijba->jb", x64, x65) * 2
    .add 139 (.ein [(38, [0, 1]), (157, [0, 2, 3, 1])] [2, 3]) 2 1,
    -- 1077: x87 = np.zeros((nocc, nvir), dtype=types[float])
    .zeros 158 [0, 1],
    -- 1078: x87 += einsum("ijka,ijba->kb", x32, x65) * 2
    .add 158 (.ein [(107, [0, 1, 2, 3]), (157, [0, 1, 4, 3])] [2, 4]) 2 1,
    -- 1079: x99 += einsum("ia->ia", x87)
    .add 102 (.ein [(158, [0, 1])] [0, 1]) 1 1,
    -- 1080: del x87
    .del 158,
    -- 1081: x143 = np.zeros((nocc, nocc), dtype=types[float])
    .zeros 159 [0, 0],
    -- 1082: x143 += einsum("iajb,ikba->kj", v.ovov, x65) * 2
    .add 159 (.ein [(9, [0, 1, 2, 3]), (157, [0, 4, 3, 1])] [4, 2]) 2 1,
    -- 1083: x144 = np.zeros((nocc, nocc, nvir, nvir), dtype=types[float])
    .zeros 160 [0, 0, 1, 1],
    -- 1084: x144 += einsum("ij,abik->jkab", x143, l2)
    .add 160 (.ein [(159, [0, 1]), (17, [2, 3, 0, 4])] [1, 4, 2, 3]) 1 1,
    -- 1085: del x143
    .del 159,
    -- 1086: x145 += einsum("ijab->jiba", x144) * -1
    .add 75 (.ein [(160, [0, 1, 2, 3])] [1, 0, 3, 2]) (-1) 1,
    -- 1087: del x144
    .del 160,
    -- 1088: l2new += einsum("ijab->abij", x145)
    .add 131 (.ein [(75, [0, 1, 2, 3])] [2, 3, 0, 1]) 1 1,
    -- 1089: l2new += einsum("ijab->baji", x145)
    .add 131 (.ein [(75, [0, 1, 2, 3])] [3, 2, 1, 0]) 1 1,
    -- 1090: del x145
    .del 75,
    -- 1091: x207 = np.zeros((nocc, nvir), dtype=types[float])
    .zeros 161 [0, 1],
    -- 1092: x207 += einsum("ia,ijba->jb", x64, x65)
    .add 161 (.ein [(38, [0, 1]), (157, [0, 2, 3, 1])] [2, 3]) 1 1,
    -- 1093: del x65
    .del 157,
    -- 1094: x213 += einsum("ia->ia", x207)
    .add 140 (.ein [(161, [0, 1])] [0, 1]) 1 1,
    -- 1095: del x207
    .del 161,
    -- 1096: x66 = np.zeros((nocc, nocc, nvir, nvir), dtype=types[float])
    .zeros 162 [0, 0, 1, 1],
    -- 1097: x66 += einsum("iabj->ijba", v.ovvo)
    .add 162 (.ein [(16, [0, 1, 2, 3])] [0, 3, 2, 1]) 1 1,
    -- 1098: x66 += einsum("ijab->ijab", v.oovv) * -0.5
    .add 162 (.ein [(15, [0, 1, 2, 3])] [0, 1, 2, 3]) (-1) 2,
    -- 1099: x82 += einsum("ia,ijba->jb", t1, x66) * 2
    .add 139 (.ein [(8, [0, 1]), (162, [0, 2, 3, 1])] [2, 3]) 2 1,
    -- 1100: x208 = np.zeros((nocc, nvir), dtype=types[float])
    .zeros 163 [0, 1],
    -- 1101: x208 += einsum("ia,ijba->jb", t1, x66)
    .add 163 (.ein [(8, [0, 1]), (162, [0, 2, 3, 1])] [2, 3]) 1 1,
    -- 1102: del x66
    .del 162,
    -- 1103: x213 += einsum("ia->ia", x208)
    .add 140 (.ein [(163, [0, 1])] [0, 1]) 1 1,
    -- 1104: del x208
    .del 163,
    -- 1105: x67 = np.zeros((nbos, nocc, nocc), dtype=types[float])
    .zeros 164 [2, 0, 0],
    -- 1106: x67 += einsum("ia,wja->wji", t1, g.bov)
    .add 164 (.ein [(8, [0, 1]), (2, [2, 3, 1])] [2, 3, 0]) 1 1,
    -- 1107: x68 = np.zeros((nbos, nocc, nocc), dtype=types[float])
    .zeros 165 [2, 0, 0],
    -- 1108: x68 += einsum("wij->wij", x67)
    .add 165 (.ein [(164, [0, 1, 2])] [0, 1, 2]) 1 1,
    -- 1109: x115 = np.zeros((nbos, nocc, nocc), dtype=types[float])
    .zeros 166 [2, 0, 0],
    -- 1110: x115 += einsum("wij->wij", x67)
    .add 166 (.ein [(164, [0, 1, 2])] [0, 1, 2]) 1 1,
    -- 1111: x68 += einsum("wij->wij", g.boo)
    .add 165 (.ein [(0, [0, 1, 2])] [0, 1, 2]) 1 1,
    -- 1112: x82 += einsum("wia,wij->ja", u11, x68) * -1
    .add 139 (.ein [(11, [0, 1, 2]), (165, [0, 1, 3])] [3, 2]) (-1) 1,
    -- 1113: x200 += einsum("wx,wij->xij", s2, x68)
    .add 136 (.ein [(24, [0, 1]), (165, [0, 2, 3])] [1, 2, 3]) 1 1,
    -- 1114: x204 = np.zeros((nbos, nocc, nvir), dtype=types[float])
    .zeros 167 [2, 0, 1],
    -- 1115: x204 += einsum("wij,wxia->xja", x68, u12)
    .add 167 (.ein [(165, [0, 1, 2]), (12, [0, 3, 1, 4])] [3, 2, 4]) 1 1,
    -- 1116: x209 = np.zeros((nocc, nvir), dtype=types[float])
    .zeros 168 [0, 1],
    -- 1117: x209 += einsum("wia,wij->ja", u11, x68) * 0.5
    .add 168 (.ein [(11, [0, 1, 2]), (165, [0, 1, 3])] [3, 2]) 1 2,
    -- 1118: del x68
    .del 165,
    -- 1119: x213 += einsum("ia->ia", x209) * -1
    .add 140 (.ein [(168, [0, 1])] [0, 1]) (-1) 1,
    -- 1120: del x209
    .del 168,
    -- 1121: x69 = np.zeros((nocc, nocc), dtype=types[float])
    .zeros 169 [0, 0],
    -- 1122: x69 += einsum("w,wij->ij", s1, g.boo)
    .add 169 (.ein [(4, [0]), (0, [0, 1, 2])] [1, 2]) 1 1,
    -- 1123: x75 += einsum("ij->ij", x69)
    .add 134 (.ein [(169, [0, 1])] [0, 1]) 1 1,
    -- 1124: x165 = np.zeros((nocc, nocc), dtype=types[float])
    .zeros 170 [0, 0],
    -- 1125: x165 += einsum("ij->ij", x69)
    .add 170 (.ein [(169, [0, 1])] [0, 1]) 1 1,
    -- 1126: del x69
    .del 169,
    -- 1127: x70 = np.zeros((nocc, nocc), dtype=types[float])
    .zeros 171 [0, 0],
    -- 1128: x70 += einsum("wia,wja->ij", g.bov, u11)
    .add 171 (.ein [(2, [0, 1, 2]), (11, [0, 3, 2])] [1, 3]) 1 1,
    -- 1129: x75 += einsum("ij->ij", x70)
    .add 134 (.ein [(171, [0, 1])] [0, 1]) 1 1,
    -- 1130: x165 += einsum("ij->ij", x70)
    .add 170 (.ein [(171, [0, 1])] [0, 1]) 1 1,
    -- 1131: del x70
    .del 171,
    -- 1132: x72 = np.zeros((nocc, nocc, nocc, nvir), dtype=types[float])
    .zeros 172 [0, 0, 0, 1],
    -- 1133: x72 += einsum("ijka->ikja", v.ooov)
    .add 172 (.ein [(14, [0, 1, 2, 3])] [0, 2, 1, 3]) 1 1,
    -- 1134: x72 += einsum("ijka->kija", v.ooov) * -0.5
    .add 172 (.ein [(14, [0, 1, 2, 3])] [2, 0, 1, 3]) (-1) 2,
    -- 1135: x73 = np.zeros((nocc, nocc), dtype=types[float])
    .zeros 173 [0, 0],
    -- 1136: x73 += einsum("ia,jika->jk", t1, x72) * 2
    .add 173 (.ein [(8, [0, 1]), (172, [2, 0, 3, 1])] [2, 3]) 2 1,
    -- 1137: x75 += einsum("ij->ij", x73)
    .add 134 (.ein [(173, [0, 1])] [0, 1]) 1 1,
    -- 1138: del x73
    .del 173,
    -- 1139: x200 += einsum("wia,jika->wjk", u11, x72) * 2
    .add 136 (.ein [(11, [0, 1, 2]), (172, [3, 1, 4, 2])] [0, 3, 4]) 2 1,
    -- 1140: del x72
    .del 172,
    -- 1141: x75 += einsum("ij->ij", f.oo)
    .add 134 (.ein [(26, [0, 1])] [0, 1]) 1 1,
    -- 1142: x82 += einsum("ia,ij->ja", t1, x75) * -1
    .add 139 (.ein [(8, [0, 1]), (134, [0, 2])] [2, 1]) (-1) 1,
    -- 1143: x204 += einsum("ij,wia->wja", x75, u11)
    .add 167 (.ein [(134, [0, 1]), (11, [2, 0, 3])] [2, 1, 3]) 1 1,
    -- 1144: x210 = np.zeros((nocc, nvir), dtype=types[float])
    .zeros 174 [0, 1],
    -- 1145: x210 += einsum("ia,ij->ja", t1, x75) * 0.5
    .add 174 (.ein [(8, [0, 1]), (134, [0, 2])] [2, 1]) 1 2,
    -- 1146: x213 += einsum("ia->ia", x210) * -1
    .add 140 (.ein [(174, [0, 1])] [0, 1]) (-1) 1,
    -- 1147: del x210
    .del 174,
    -- 1148: l1new += einsum("ai,ji->aj", l1, x75) * -1
    .add 82 (.ein [(10, [0, 1]), (134, [2, 1])] [0, 2]) (-1) 1,
    -- 1149: lu12new += einsum("ij,wxaj->xwai", x75, lu12) * -1
    .add 106 (.ein [(134, [0, 1]), (13, [2, 3, 4, 1])] [3, 2, 4, 0]) (-1) 1,
    -- 1150: del x75
    .del 134,
    -- 1151: x76 = np.zeros((nvir, nvir), dtype=types[float])
    .zeros 175 [1, 1],
    -- 1152: x76 += einsum("w,wab->ab", s1, g.bvv)
    .add 175 (.ein [(4, [0]), (3, [0, 1, 2])] [1, 2]) 1 1,
    -- 1153: x79 = np.zeros((nvir, nvir), dtype=types[float])
    .zeros 176 [1, 1],
    -- 1154: x79 += einsum("ab->ab", x76)
    .add 176 (.ein [(175, [0, 1])] [0, 1]) 1 1,
    -- 1155: x130 += einsum("ab->ab", x76)
    .add 88 (.ein [(175, [0, 1])] [0, 1]) 1 1,
    -- 1156: x161 = np.zeros((nvir, nvir), dtype=types[float])
    .zeros 177 [1, 1],
    -- 1157: x161 += einsum("ab->ab", x76)
    .add 177 (.ein [(175, [0, 1])] [0, 1]) 1 1,
    -- 1158: x198 = np.zeros((nvir, nvir), dtype=types[float])
    .zeros 178 [1, 1],
    -- 1159: x198 += einsum("ab->ab", x76)
    .add 178 (.ein [(175, [0, 1])] [0, 1]) 1 1,
    -- 1160: del x76
    .del 175,
    -- 1161: x77 = np.zeros((nocc, nvir, nvir, nvir), dtype=types[float])
    .zeros 179 [0, 1, 1, 1],
    -- 1162: x77 += einsum("iabc->ibac", v.ovvv) * -0.5
    .add 179 (.ein [(7, [0, 1, 2, 3])] [0, 2, 1, 3]) (-1) 2,
    -- 1163: x77 += einsum("iabc->ibca", v.ovvv)
    .add 179 (.ein [(7, [0, 1, 2, 3])] [0, 2, 3, 1]) 1 1,
    -- 1164: x78 = np.zeros((nvir, nvir), dtype=types[float])
    .zeros 180 [1, 1],
    -- 1165: x78 += einsum("ia,ibca->bc", t1, x77) * 2
    .add 180 (.ein [(8, [0, 1]), (179, [0, 2, 3, 1])] [2, 3]) 2 1,
    -- 1166: x79 += einsum("ab->ab", x78)
    .add 176 (.ein [(180, [0, 1])] [0, 1]) 1 1,
    -- 1167: x198 += einsum("ab->ab", x78)
    .add 178 (.ein [(180, [0, 1])] [0, 1]) 1 1,
    -- 1168: del x78
    .del 180,
    -- 1169: x201 = np.zeros((nbos, nvir, nvir), dtype=types[float])
    .zeros 181 [2, 1, 1],
    -- 1170: x201 += einsum("wia,ibca->wbc", u11, x77) * 2
    .add 181 (.ein [(11, [0, 1, 2]), (179, [1, 3, 4, 2])] [0, 3, 4]) 2 1,
    -- 1171: del x77
    .del 179,
    -- 1172: x79 += einsum("ab->ab", f.vv)
    .add 176 (.ein [(27, [0, 1])] [0, 1]) 1 1,
    -- 1173: x82 += einsum("ia,ba->ib", t1, x79)
    .add 139 (.ein [(8, [0, 1]), (176, [2, 1])] [0, 2]) 1 1,
    -- 1174: x211 = np.zeros((nocc, nvir), dtype=types[float])
    .zeros 182 [0, 1],
    -- 1175: x211 += einsum("ia,ba->ib", t1, x79) * 0.5
    .add 182 (.ein [(8, [0, 1]), (176, [2, 1])] [0, 2]) 1 2,
    -- 1176: del x79
    .del 176,
    -- 1177: x213 += einsum("ia->ia", x211)
    .add 140 (.ein [(182, [0, 1])] [0, 1]) 1 1,
    -- 1178: del x211
    .del 182,
    -- 1179: x80 = np.zeros((nbos), dtype=types[float])
    .zeros 183 [2],
    -- 1180: x80 += einsum("ia,wia->w", t1, g.bov)
    .add 183 (.ein [(8, [0, 1]), (2, [2, 0, 1])] [2]) 1 1,
    -- 1181: x81 = np.zeros((nbos), dtype=types[float])
    .zeros 184 [2],
    -- 1182: x81 += einsum("w->w", x80) * 2
    .add 184 (.ein [(183, [0])] [0]) 2 1,
    -- 1183: x135 = np.zeros((nbos), dtype=types[float])
    .zeros 185 [2],
    -- 1184: x135 += einsum("w->w", x80) * 2
    .add 185 (.ein [(183, [0])] [0]) 2 1,
    -- 1185: del x80
    .del 183,
    -- 1186: x81 += einsum("w->w", G)
    .add 184 (.ein [(28, [0])] [0]) 1 1,
    -- 1187: x82 += einsum("w,wia->ia", x81, u11)
    .add 139 (.ein [(184, [0]), (11, [0, 1, 2])] [1, 2]) 1 1,
    -- 1188: x204 += einsum("w,wxia->xia", x81, u12) * -1
    .add 167 (.ein [(184, [0]), (12, [0, 1, 2, 3])] [1, 2, 3]) (-1) 1,
    -- 1189: x212 = np.zeros((nocc, nvir), dtype=types[float])
    .zeros 186 [0, 1],
    -- 1190: x212 += einsum("w,wia->ia", x81, u11) * 0.5
    .add 186 (.ein [(184, [0]), (11, [0, 1, 2])] [1, 2]) 1 2,
    -- 1191: del x81
    .del 184,
    -- 1192: x213 += einsum("ia->ia", x212)
    .add 140 (.ein [(186, [0, 1])] [0, 1]) 1 1,
    -- 1193: del x212
    .del 186,
    -- 1194: x82 += einsum("ai->ia", f.vo)
    .add 139 (.ein [(29, [0, 1])] [1, 0]) 1 1,
    -- 1195: x83 = np.zeros((nocc, nocc, nvir, nvir), dtype=types[float])
    .zeros 187 [0, 0, 1, 1],
    -- 1196: x83 += einsum("abij->jiab", l2) * 2
    .add 187 (.ein [(17, [0, 1, 2, 3])] [3, 2, 0, 1]) 2 1,
    -- 1197: x83 += einsum("abij->jiba", l2) * -1
    .add 187 (.ein [(17, [0, 1, 2, 3])] [3, 2, 1, 0]) (-1) 1,
    -- 1198: l1new += einsum("ia,ijba->bj", x82, x83)
    .add 82 (.ein [(139, [0, 1]), (187, [0, 2, 3, 1])] [3, 2]) 1 1,
    -- 1199: del x82
    .del 139,
    -- 1200: del x83
    .del 187,
    -- 1201: x84 = np.zeros((nocc, nvir), dtype=types[float])
    .zeros 188 [0, 1],
    -- 1202: x84 += einsum("w,wia->ia", ls1, u11)
    .add 188 (.ein [(23, [0]), (11, [0, 1, 2])] [1, 2]) 1 1,
    -- 1203: x99 += einsum("ia->ia", x84) * -1
    .add 102 (.ein [(188, [0, 1])] [0, 1]) (-1) 1,
    -- 1204: del x84
    .del 188,
    -- 1205: x85 = np.zeros((nocc, nvir), dtype=types[float])
    .zeros 189 [0, 1],
    -- 1206: x85 += einsum("wx,wxia->ia", ls2, u12)
    .add 189 (.ein [(25, [0, 1]), (12, [0, 1, 2, 3])] [2, 3]) 1 1,
    -- 1207: x99 += einsum("ia->ia", x85) * -0.5
    .add 102 (.ein [(189, [0, 1])] [0, 1]) (-1) 2,
    -- 1208: del x85
    .del 189,
    -- 1209: x89 = np.zeros((nbos, nocc, nocc), dtype=types[float])
    .zeros 190 [2, 0, 0],
    -- 1210: x89 += einsum("ia,waj->wji", t1, lu11)
    .add 190 (.ein [(8, [0, 1]), (20, [2, 1, 3])] [2, 3, 0]) 1 1,
    -- 1211: x91 = np.zeros((nbos, nocc, nocc), dtype=types[float])
    .zeros 191 [2, 0, 0],
    -- 1212: x91 += einsum("wij->wij", x89)
    .add 191 (.ein [(190, [0, 1, 2])] [0, 1, 2]) 1 1,
    -- 1213: x119 = np.zeros((nbos, nocc, nocc), dtype=types[float])
    .zeros 192 [2, 0, 0],
    -- 1214: x119 += einsum("wij->wij", x89)
    .add 192 (.ein [(190, [0, 1, 2])] [0, 1, 2]) 1 1,
    -- 1215: x90 = np.zeros((nbos, nocc, nocc), dtype=types[float])
    .zeros 193 [2, 0, 0],
    -- 1216: x90 += einsum("wia,wxaj->xji", u11, lu12)
    .add 193 (.ein [(11, [0, 1, 2]), (13, [0, 3, 2, 4])] [3, 4, 1]) 1 1,
    -- 1217: x91 += einsum("wij->wij", x90)
    .add 191 (.ein [(193, [0, 1, 2])] [0, 1, 2]) 1 1,
    -- 1218: x92 = np.zeros((nocc, nvir), dtype=types[float])
    .zeros 194 [0, 1],
    -- 1219: x92 += einsum("wia,wij->ja", u11, x91)
    .add 194 (.ein [(11, [0, 1, 2]), (191, [0, 1, 3])] [3, 2]) 1 1,
    -- 1220: del x91
    .del 191,
    -- 1221: x99 += einsum("ia->ia", x92)
    .add 102 (.ein [(194, [0, 1])] [0, 1]) 1 1,
    -- 1222: del x92
    .del 194,
    -- 1223: x119 += einsum("wij->wij", x90)
    .add 192 (.ein [(193, [0, 1, 2])] [0, 1, 2]) 1 1,
    -- 1224: x120 = np.zeros((nbos, nocc, nocc), dtype=types[float])
    .zeros 195 [2, 0, 0],
    -- 1225: x120 += einsum("wx,wij->xij", s2, x119)
    .add 195 (.ein [(24, [0, 1]), (192, [0, 2, 3])] [1, 2, 3]) 1 1,
    -- 1226: x235 = np.zeros((nbos, nbos, nocc, nvir), dtype=types[float])
    .zeros 196 [2, 2, 0, 1],
    -- 1227: x235 += einsum("wia,xji->xwja", g.bov, x119)
    .add 196 (.ein [(2, [0, 1, 2]), (192, [3, 4, 1])] [3, 0, 4, 2]) 1 1,
    -- 1228: x236 = np.zeros((nbos, nbos, nocc, nvir), dtype=types[float])
    .zeros 197 [2, 2, 0, 1],
    -- 1229: x236 += einsum("wxia->xwia", x235)
    .add 197 (.ein [(196, [0, 1, 2, 3])] [1, 0, 2, 3]) 1 1,
    -- 1230: del x235
    .del 196,
    -- 1231: x218 = np.zeros((nbos, nbos), dtype=types[float])
    .zeros 198 [2, 2],
    -- 1232: x218 += einsum("wij,xji->wx", g.boo, x90)
    .add 198 (.ein [(0, [0, 1, 2]), (193, [3, 2, 1])] [0, 3]) 1 1,
    -- 1233: x228 -= einsum("wx->wx", x218) * 2
    .add 105 (.ein [(198, [0, 1])] [0, 1]) (-2) 1,
    -- 1234: del x218
    .del 198,
    -- 1235: x223 = np.zeros((nbos, nbos), dtype=types[float])
    .zeros 199 [2, 2],
    -- 1236: x223 += einsum("wij,xji->wx", x67, x90)
    .add 199 (.ein [(164, [0, 1, 2]), (193, [3, 2, 1])] [0, 3]) 1 1,
    -- 1237: del x90
    .del 193,
    -- 1238: del x67
    .del 164,
    -- 1239: x228 -= einsum("wx->wx", x223) * 2
    .add 105 (.ein [(199, [0, 1])] [0, 1]) (-2) 1,
    -- 1240: del x223
    .del 199,
    -- 1241: x93 = np.zeros((nocc, nocc), dtype=types[float])
    .zeros 200 [0, 0],
    -- 1242: x93 += einsum("ai,ja->ij", l1, t1)
    .add 200 (.ein [(10, [0, 1]), (8, [2, 0])] [1, 2]) 1 1,
    -- 1243: x97 += einsum("ij->ij", x93)
    .add 146 (.ein [(200, [0, 1])] [0, 1]) 1 1,
    -- 1244: x167 = np.zeros((nocc, nocc), dtype=types[float])
    .zeros 201 [0, 0],
    -- 1245: x167 += einsum("ij->ij", x93)
    .add 201 (.ein [(200, [0, 1])] [0, 1]) 1 1,
    -- 1246: ls1new = np.zeros((nbos), dtype=types[float])
    .zeros 202 [2],
    -- 1247: ls1new -= einsum("ij,wji->w", x93, g.boo) * 2
    .add 202 (.ein [(200, [0, 1]), (0, [2, 1, 0])] [2]) (-2) 1,
    -- 1248: del x93
    .del 200,
    -- 1249: x94 = np.zeros((nocc, nocc), dtype=types[float])
    .zeros 203 [0, 0],
    -- 1250: x94 += einsum("wai,wja->ij", lu11, u11)
    .add 203 (.ein [(20, [0, 1, 2]), (11, [0, 3, 1])] [2, 3]) 1 1,
    -- 1251: x97 += einsum("ij->ij", x94)
    .add 146 (.ein [(203, [0, 1])] [0, 1]) 1 1,
    -- 1252: x167 += einsum("ij->ij", x94)
    .add 201 (.ein [(203, [0, 1])] [0, 1]) 1 1,
    -- 1253: x168 = np.zeros((nocc, nocc, nvir, nvir), dtype=types[float])
    .zeros 204 [0, 0, 1, 1],
    -- 1254: x168 += einsum("ij,jakb->ikab", x167, v.ovov)
    .add 204 (.ein [(201, [0, 1]), (9, [1, 2, 3, 4])] [0, 3, 2, 4]) 1 1,
    -- 1255: del x167
    .del 201,
    -- 1256: x170 += einsum("ijab->ijba", x168)
    .add 61 (.ein [(204, [0, 1, 2, 3])] [0, 1, 3, 2]) 1 1,
    -- 1257: del x168
    .del 204,
    -- 1258: x215 += einsum("ij->ij", x94)
    .add 148 (.ein [(203, [0, 1])] [0, 1]) 1 1,
    -- 1259: del x94
    .del 203,
    -- 1260: x95 = np.zeros((nocc, nocc), dtype=types[float])
    .zeros 205 [0, 0],
    -- 1261: x95 += einsum("wxai,wxja->ij", lu12, u12)
    .add 205 (.ein [(13, [0, 1, 2, 3]), (12, [0, 1, 4, 2])] [3, 4]) 1 1,
    -- 1262: x97 += einsum("ij->ij", x95) * 0.5
    .add 146 (.ein [(205, [0, 1])] [0, 1]) 1 2,
    -- 1263: x98 = np.zeros((nocc, nvir), dtype=types[float])
    .zeros 206 [0, 1],
    -- 1264: x98 += einsum("ia,ij->ja", t1, x97)
    .add 206 (.ein [(8, [0, 1]), (146, [0, 2])] [2, 1]) 1 1,
    -- 1265: x99 += einsum("ia->ia", x98)
    .add 102 (.ein [(206, [0, 1])] [0, 1]) 1 1,
    -- 1266: del x98
    .del 206,
    -- 1267: l1new += einsum("ia,ji->aj", x64, x97) * -1
    .add 82 (.ein [(38, [0, 1]), (146, [2, 0])] [1, 2]) (-1) 1,
    -- 1268: del x64
    .del 38,
    -- 1269: x148 += einsum("ij->ij", x95) * 0.5
    .add 147 (.ein [(205, [0, 1])] [0, 1]) 1 2,
    -- 1270: x149 = np.zeros((nocc, nocc, nvir, nvir), dtype=types[float])
    .zeros 207 [0, 0, 1, 1],
    -- 1271: x149 += einsum("ij,jakb->ikab", x148, v.ovov)
    .add 207 (.ein [(147, [0, 1]), (9, [1, 2, 3, 4])] [0, 3, 2, 4]) 1 1,
    -- 1272: del x148
    .del 147,
    -- 1273: x150 = np.zeros((nocc, nocc, nvir, nvir), dtype=types[float])
    .zeros 208 [0, 0, 1, 1],
    -- 1274: x150 += einsum("ijab->ijba", x149)
    .add 208 (.ein [(207, [0, 1, 2, 3])] [0, 1, 3, 2]) 1 1,
    -- 1275: del x149
    .del 207,
    -- 1276: x215 += einsum("ij->ij", x95) * 0.5
    .add 148 (.ein [(205, [0, 1])] [0, 1]) 1 2,
    -- 1277: del x95
    .del 205,
    -- 1278: ls1new += einsum("ij,wji->w", x215, g.boo) * -2
    .add 202 (.ein [(148, [0, 1]), (0, [2, 1, 0])] [2]) (-2) 1,
    -- 1279: del x215
    .del 148,
    -- 1280: x99 += einsum("ia->ia", t1) * -1
    .add 102 (.ein [(8, [0, 1])] [0, 1]) (-1) 1,
    -- 1281: ls1new += einsum("ia,wia->w", x99, g.bov) * -2
    .add 202 (.ein [(102, [0, 1]), (2, [2, 0, 1])] [2]) (-2) 1,
    -- 1282: x100 = np.zeros((nocc, nocc, nvir, nvir), dtype=types[float])
    .zeros 209 [0, 0, 1, 1],
    -- 1283: x100 += einsum("iajb->jiab", v.ovov) * 2
    .add 209 (.ein [(9, [0, 1, 2, 3])] [2, 0, 1, 3]) 2 1,
    -- 1284: x100 += einsum("iajb->jiba", v.ovov) * -1
    .add 209 (.ein [(9, [0, 1, 2, 3])] [2, 0, 3, 1]) (-1) 1,
    -- 1285: l1new += einsum("ia,ijba->bj", x99, x100) * -1
    .add 82 (.ein [(102, [0, 1]), (209, [0, 2, 3, 1])] [3, 2]) (-1) 1,
    -- 1286: del x99
    .del 102,
    -- 1287: del x100
    .del 209,
    -- 1288: x101 = np.zeros((nvir, nvir), dtype=types[float])
    .zeros 210 [1, 1],
    -- 1289: x101 += einsum("ai,ib->ab", l1, t1)
    .add 210 (.ein [(10, [0, 1]), (8, [1, 2])] [0, 2]) 1 1,
    -- 1290: x105 += einsum("ab->ab", x101)
    .add 150 (.ein [(210, [0, 1])] [0, 1]) 1 1,
    -- 1291: ls1new += einsum("ab,wab->w", x101, g.bvv) * 2
    .add 202 (.ein [(210, [0, 1]), (3, [2, 0, 1])] [2]) 2 1,
    -- 1292: del x101
    .del 210,
    -- 1293: x102 = np.zeros((nvir, nvir), dtype=types[float])
    .zeros 211 [1, 1],
    -- 1294: x102 += einsum("wai,wib->ab", lu11, u11)
    .add 211 (.ein [(20, [0, 1, 2]), (11, [0, 2, 3])] [1, 3]) 1 1,
    -- 1295: x105 += einsum("ab->ab", x102)
    .add 150 (.ein [(211, [0, 1])] [0, 1]) 1 1,
    -- 1296: x153 = np.zeros((nocc, nocc, nvir, nvir), dtype=types[float])
    .zeros 212 [0, 0, 1, 1],
    -- 1297: x153 += einsum("ab,icjb->ijac", x102, v.ovov)
    .add 212 (.ein [(211, [0, 1]), (9, [2, 3, 4, 1])] [2, 4, 0, 3]) 1 1,
    -- 1298: x170 += einsum("ijab->ijab", x153)
    .add 61 (.ein [(212, [0, 1, 2, 3])] [0, 1, 2, 3]) 1 1,
    -- 1299: del x153
    .del 212,
    -- 1300: x214 += einsum("ab->ab", x102) * 2
    .add 155 (.ein [(211, [0, 1])] [0, 1]) 2 1,
    -- 1301: del x102
    .del 211,
    -- 1302: x103 = np.zeros((nvir, nvir), dtype=types[float])
    .zeros 213 [1, 1],
    -- 1303: x103 += einsum("wxai,wxib->ab", lu12, u12)
    .add 213 (.ein [(13, [0, 1, 2, 3]), (12, [0, 1, 3, 4])] [2, 4]) 1 1,
    -- 1304: x105 += einsum("ab->ab", x103) * 0.5
    .add 150 (.ein [(213, [0, 1])] [0, 1]) 1 2,
    -- 1305: x146 += einsum("ab->ab", x103) * 0.5
    .add 151 (.ein [(213, [0, 1])] [0, 1]) 1 2,
    -- 1306: x147 = np.zeros((nocc, nocc, nvir, nvir), dtype=types[float])
    .zeros 214 [0, 0, 1, 1],
    -- 1307: x147 += einsum("ab,ibjc->ijac", x146, v.ovov)
    .add 214 (.ein [(151, [0, 1]), (9, [2, 1, 3, 4])] [2, 3, 0, 4]) 1 1,
    -- 1308: del x146
    .del 151,
    -- 1309: x150 += einsum("ijab->jiab", x147)
    .add 208 (.ein [(214, [0, 1, 2, 3])] [1, 0, 2, 3]) 1 1,
    -- 1310: del x147
    .del 214,
    -- 1311: l2new += einsum("ijab->baij", x150) * -1
    .add 131 (.ein [(208, [0, 1, 2, 3])] [3, 2, 0, 1]) (-1) 1,
    -- 1312: l2new += einsum("ijab->abji", x150) * -1
    .add 131 (.ein [(208, [0, 1, 2, 3])] [2, 3, 1, 0]) (-1) 1,
    -- 1313: del x150
    .del 208,
    -- 1314: x214 += einsum("ab->ab", x103)
    .add 155 (.ein [(213, [0, 1])] [0, 1]) 1 1,
    -- 1315: del x103
    .del 213,
    -- 1316: ls1new += einsum("ab,wab->w", x214, g.bvv)
    .add 202 (.ein [(155, [0, 1]), (3, [2, 0, 1])] [2]) 1 1,
    -- 1317: del x214
    .del 155,
    -- 1318: x106 = np.zeros((nocc, nvir, nvir, nvir), dtype=types[float])
    .zeros 215 [0, 1, 1, 1],
    -- 1319: x106 += einsum("iabc->ibac", v.ovvv) * -1
    .add 215 (.ein [(7, [0, 1, 2, 3])] [0, 2, 1, 3]) (-1) 1,
    -- 1320: x106 += einsum("iabc->ibca", v.ovvv) * 2
    .add 215 (.ein [(7, [0, 1, 2, 3])] [0, 2, 3, 1]) 2 1,
    -- 1321: l1new += einsum("ab,iabc->ci", x105, x106)
    .add 82 (.ein [(150, [0, 1]), (215, [2, 0, 1, 3])] [3, 2]) 1 1,
    -- 1322: del x105
    .del 150,
    -- 1323: del x106
    .del 215,
    -- 1324: x107 = np.zeros((nocc, nocc, nocc, nvir), dtype=types[float])
    .zeros 216 [0, 0, 0, 1],
    -- 1325: x107 -= einsum("ijka->ikja", v.ooov)
    .add 216 (.ein [(14, [0, 1, 2, 3])] [0, 2, 1, 3]) (-1) 1,
    -- 1326: x107 += einsum("ijka->kija", v.ooov) * 2
    .add 216 (.ein [(14, [0, 1, 2, 3])] [2, 0, 1, 3]) 2 1,
    -- 1327: l1new += einsum("ij,kjia->ak", x97, x107) * -1
    .add 82 (.ein [(146, [0, 1]), (216, [2, 1, 0, 3])] [3, 2]) (-1) 1,
    -- 1328: del x97
    .del 146,
    -- 1329: del x107
    .del 216,
    -- 1330: x108 = np.zeros((nbos, nocc, nocc), dtype=types[float])
    .zeros 217 [2, 0, 0],
    -- 1331: x108 += einsum("wia,wxja->xij", g.bov, u12)
    .add 217 (.ein [(2, [0, 1, 2]), (12, [0, 3, 4, 2])] [3, 1, 4]) 1 1,
    -- 1332: x116 = np.zeros((nbos, nocc, nocc), dtype=types[float])
    .zeros 218 [2, 0, 0],
    -- 1333: x116 += einsum("wij->wij", x108)
    .add 218 (.ein [(217, [0, 1, 2])] [0, 1, 2]) 1 1,
    -- 1334: x200 += einsum("wij->wij", x108)
    .add 136 (.ein [(217, [0, 1, 2])] [0, 1, 2]) 1 1,
    -- 1335: del x108
    .del 217,
    -- 1336: x109 = np.zeros((nocc, nocc, nocc, nvir), dtype=types[float])
    .zeros 219 [0, 0, 0, 1],
    -- 1337: x109 += einsum("ijka->ikja", v.ooov) * 2
    .add 219 (.ein [(14, [0, 1, 2, 3])] [0, 2, 1, 3]) 2 1,
    -- 1338: x109 -= einsum("ijka->kija", v.ooov)
    .add 219 (.ein [(14, [0, 1, 2, 3])] [2, 0, 1, 3]) (-1) 1,
    -- 1339: x116 += einsum("wia,jika->wjk", u11, x109)
    .add 218 (.ein [(11, [0, 1, 2]), (219, [3, 1, 4, 2])] [0, 3, 4]) 1 1,
    -- 1340: x183 = np.zeros((nocc, nocc), dtype=types[float])
    .zeros 220 [0, 0],
    -- 1341: x183 += einsum("ia,jika->jk", t1, x109)
    .add 220 (.ein [(8, [0, 1]), (219, [2, 0, 3, 1])] [2, 3]) 1 1,
    -- 1342: x185 = np.zeros((nocc, nocc), dtype=types[float])
    .zeros 221 [0, 0],
    -- 1343: x185 += einsum("ij->ij", x183)
    .add 221 (.ein [(220, [0, 1])] [0, 1]) 1 1,
    -- 1344: del x183
    .del 220,
    -- 1345: lu12new -= einsum("ijka,wxki->xwaj", x109, x31)
    .add 106 (.ein [(219, [0, 1, 2, 3]), (99, [4, 5, 2, 0])] [5, 4, 3, 1]) (-1) 1,
    -- 1346: del x109
    .del 219,
    -- 1347: x110 = np.zeros((nocc, nocc, nvir, nvir), dtype=types[float])
    .zeros 222 [0, 0, 1, 1],
    -- 1348: x110 += einsum("iajb->jiab", v.ovov) * 2
    .add 222 (.ein [(9, [0, 1, 2, 3])] [2, 0, 1, 3]) 2 1,
    -- 1349: x110 -= einsum("iajb->jiba", v.ovov)
    .add 222 (.ein [(9, [0, 1, 2, 3])] [2, 0, 3, 1]) (-1) 1,
    -- 1350: x111 = np.zeros((nocc, nvir), dtype=types[float])
    .zeros 223 [0, 1],
    -- 1351: x111 += einsum("ia,ijba->jb", t1, x110)
    .add 223 (.ein [(8, [0, 1]), (222, [0, 2, 3, 1])] [2, 3]) 1 1,
    -- 1352: x112 += einsum("ia->ia", x111)
    .add 39 (.ein [(223, [0, 1])] [0, 1]) 1 1,
    -- 1353: x184 = np.zeros((nocc, nocc), dtype=types[float])
    .zeros 224 [0, 0],
    -- 1354: x184 += einsum("ia,ja->ji", t1, x111)
    .add 224 (.ein [(8, [0, 1]), (223, [2, 1])] [2, 0]) 1 1,
    -- 1355: x185 += einsum("ij->ij", x184)
    .add 221 (.ein [(224, [0, 1])] [0, 1]) 1 1,
    -- 1356: del x184
    .del 224,
    -- 1357: x186 = np.zeros((nocc, nocc, nvir, nvir), dtype=types[float])
    .zeros 225 [0, 0, 1, 1],
    -- 1358: x186 += einsum("ij,abjk->ikab", x185, l2)
    .add 225 (.ein [(221, [0, 1]), (17, [2, 3, 1, 4])] [0, 4, 2, 3]) 1 1,
    -- 1359: del x185
    .del 221,
    -- 1360: x191 -= einsum("ijab->jiba", x186)
    .add 90 (.ein [(225, [0, 1, 2, 3])] [1, 0, 3, 2]) (-1) 1,
    -- 1361: del x186
    .del 225,
    -- 1362: x189 = np.zeros((nocc, nocc, nvir, nvir), dtype=types[float])
    .zeros 226 [0, 0, 1, 1],
    -- 1363: x189 += einsum("ia,jkib->jkab", x111, x32)
    .add 226 (.ein [(223, [0, 1]), (107, [2, 3, 0, 4])] [2, 3, 1, 4]) 1 1,
    -- 1364: x191 -= einsum("ijab->ijba", x189)
    .add 90 (.ein [(226, [0, 1, 2, 3])] [0, 1, 3, 2]) (-1) 1,
    -- 1365: del x189
    .del 226,
    -- 1366: x191 += einsum("ai,jb->ijab", l1, x111)
    .add 90 (.ein [(10, [0, 1]), (223, [2, 3])] [1, 2, 0, 3]) 1 1,
    -- 1367: del x111
    .del 223,
    -- 1368: x113 = np.zeros((nbos, nocc, nvir), dtype=types[float])
    .zeros 227 [2, 0, 1],
    -- 1369: x113 += einsum("wia,ijba->wjb", u11, x110)
    .add 227 (.ein [(11, [0, 1, 2]), (222, [1, 3, 4, 2])] [0, 3, 4]) 1 1,
    -- 1370: x114 = np.zeros((nbos, nocc, nvir), dtype=types[float])
    .zeros 228 [2, 0, 1],
    -- 1371: x114 += einsum("wia->wia", x113)
    .add 228 (.ein [(227, [0, 1, 2])] [0, 1, 2]) 1 1,
    -- 1372: x190 = np.zeros((nocc, nocc, nvir, nvir), dtype=types[float])
    .zeros 229 [0, 0, 1, 1],
    -- 1373: x190 += einsum("wai,wjb->jiba", lu11, x113)
    .add 229 (.ein [(20, [0, 1, 2]), (227, [0, 3, 4])] [3, 2, 4, 1]) 1 1,
    -- 1374: del x113
    .del 227,
    -- 1375: x191 += einsum("ijab->jiba", x190)
    .add 90 (.ein [(229, [0, 1, 2, 3])] [1, 0, 3, 2]) 1 1,
    -- 1376: del x190
    .del 229,
    -- 1377: lu12new += einsum("ijab,wxib->xwaj", x110, x237)
    .add 106 (.ein [(222, [0, 1, 2, 3]), (94, [4, 5, 0, 3])] [5, 4, 2, 1]) 1 1,
    -- 1378: del x237
    .del 94,
    -- 1379: del x110
    .del 222,
    -- 1380: x112 += einsum("ia->ia", f.ov)
    .add 39 (.ein [(5, [0, 1])] [0, 1]) 1 1,
    -- 1381: x116 += einsum("ia,wja->wij", x112, u11)
    .add 218 (.ein [(39, [0, 1]), (11, [2, 3, 1])] [2, 0, 3]) 1 1,
    -- 1382: x134 = np.zeros((nbos), dtype=types[float])
    .zeros 230 [2],
    -- 1383: x134 += einsum("ia,wia->w", x112, u11)
    .add 230 (.ein [(39, [0, 1]), (11, [2, 0, 1])] [2]) 1 1,
    -- 1384: x137 = np.zeros((nbos), dtype=types[float])
    .zeros 231 [2],
    -- 1385: x137 += einsum("w->w", x134) * 2
    .add 231 (.ein [(230, [0])] [0]) 2 1,
    -- 1386: del x134
    .del 230,
    -- 1387: lu12new -= einsum("ia,wxji->xwaj", x112, x31)
    .add 106 (.ein [(39, [0, 1]), (99, [2, 3, 4, 0])] [3, 2, 1, 4]) (-1) 1,
    -- 1388: del x112
    .del 39,
    -- 1389: del x31
    .del 99,
    -- 1390: x114 += einsum("wia->wia", gc.bov)
    .add 228 (.ein [(32, [0, 1, 2])] [0, 1, 2]) 1 1,
    -- 1391: x116 += einsum("ia,wja->wji", t1, x114)
    .add 218 (.ein [(8, [0, 1]), (228, [2, 3, 1])] [2, 3, 0]) 1 1,
    -- 1392: l1new -= einsum("wia,wji->aj", x114, x119)
    .add 82 (.ein [(228, [0, 1, 2]), (192, [0, 3, 1])] [2, 3]) (-1) 1,
    -- 1393: del x114
    .del 228,
    -- 1394: del x119
    .del 192,
    -- 1395: x115 += einsum("wij->wij", g.boo)
    .add 166 (.ein [(0, [0, 1, 2])] [0, 1, 2]) 1 1,
    -- 1396: x116 += einsum("wx,wij->xij", s2, x115)
    .add 218 (.ein [(24, [0, 1]), (166, [0, 2, 3])] [1, 2, 3]) 1 1,
    -- 1397: x227 = np.zeros((nbos, nbos), dtype=types[float])
    .zeros 232 [2, 2],
    -- 1398: x227 += einsum("wij,xji->wx", x115, x89)
    .add 232 (.ein [(166, [0, 1, 2]), (190, [3, 2, 1])] [0, 3]) 1 1,
    -- 1399: del x89
    .del 190,
    -- 1400: x228 -= einsum("wx->wx", x227) * 2
    .add 105 (.ein [(232, [0, 1])] [0, 1]) (-2) 1,
    -- 1401: del x227
    .del 232,
    -- 1402: x234 = np.zeros((nbos, nbos, nocc, nvir), dtype=types[float])
    .zeros 233 [2, 2, 0, 1],
    -- 1403: x234 += einsum("wai,xji->xwja", lu11, x115)
    .add 233 (.ein [(20, [0, 1, 2]), (166, [3, 4, 2])] [3, 0, 4, 1]) 1 1,
    -- 1404: x236 += einsum("wxia->wxia", x234)
    .add 197 (.ein [(233, [0, 1, 2, 3])] [0, 1, 2, 3]) 1 1,
    -- 1405: del x234
    .del 233,
    -- 1406: x116 += einsum("wij->wij", gc.boo)
    .add 218 (.ein [(31, [0, 1, 2])] [0, 1, 2]) 1 1,
    -- 1407: l1new -= einsum("wai,wji->aj", lu11, x116)
    .add 82 (.ein [(20, [0, 1, 2]), (218, [0, 3, 2])] [1, 3]) (-1) 1,
    -- 1408: del x116
    .del 218,
    -- 1409: x117 = np.zeros((nocc, nocc, nvir, nvir), dtype=types[float])
    .zeros 234 [0, 0, 1, 1],
    -- 1410: x117 += einsum("abij->jiab", l2) * 2
    .add 234 (.ein [(17, [0, 1, 2, 3])] [3, 2, 0, 1]) 2 1,
    -- 1411: x117 -= einsum("abij->jiba", l2)
    .add 234 (.ein [(17, [0, 1, 2, 3])] [3, 2, 1, 0]) (-1) 1,
    -- 1412: x118 = np.zeros((nbos, nocc, nvir), dtype=types[float])
    .zeros 235 [2, 0, 1],
    -- 1413: x118 += einsum("wia,ijba->wjb", u11, x117)
    .add 235 (.ein [(11, [0, 1, 2]), (234, [1, 3, 4, 2])] [0, 3, 4]) 1 1,
    -- 1414: x120 += einsum("ia,wja->wji", t1, x118)
    .add 195 (.ein [(8, [0, 1]), (235, [2, 3, 1])] [2, 3, 0]) 1 1,
    -- 1415: x122 = np.zeros((nbos, nocc, nvir), dtype=types[float])
    .zeros 236 [2, 0, 1],
    -- 1416: x122 += einsum("wia->wia", x118)
    .add 236 (.ein [(235, [0, 1, 2])] [0, 1, 2]) 1 1,
    -- 1417: l1new -= einsum("wij,wja->ai", x115, x118)
    .add 82 (.ein [(166, [0, 1, 2]), (235, [0, 2, 3])] [3, 1]) (-1) 1,
    -- 1418: del x115
    .del 166,
    -- 1419: del x118
    .del 235,
    -- 1420: lu11new += einsum("wai,ijba->wbj", g.bvo, x117)
    .add 96 (.ein [(1, [0, 1, 2]), (234, [2, 3, 4, 1])] [0, 4, 3]) 1 1,
    -- 1421: del x117
    .del 234,
    -- 1422: x120 += einsum("ai,wja->wij", l1, u11)
    .add 195 (.ein [(10, [0, 1]), (11, [2, 3, 0])] [2, 1, 3]) 1 1,
    -- 1423: x120 += einsum("wai,wxja->xij", lu11, u12)
    .add 195 (.ein [(20, [0, 1, 2]), (12, [0, 3, 4, 1])] [3, 2, 4]) 1 1,
    -- 1424: l1new -= einsum("wia,wji->aj", g.bov, x120)
    .add 82 (.ein [(2, [0, 1, 2]), (195, [0, 3, 1])] [2, 3]) (-1) 1,
    -- 1425: del x120
    .del 195,
    -- 1426: x121 = np.zeros((nbos, nocc, nvir), dtype=types[float])
    .zeros 237 [2, 0, 1],
    -- 1427: x121 += einsum("wx,wai->xia", s2, lu11)
    .add 237 (.ein [(24, [0, 1]), (20, [0, 2, 3])] [1, 3, 2]) 1 1,
    -- 1428: x122 += einsum("wia->wia", x121)
    .add 236 (.ein [(237, [0, 1, 2])] [0, 1, 2]) 1 1,
    -- 1429: del x121
    .del 237,
    -- 1430: x188 = np.zeros((nocc, nocc, nvir, nvir), dtype=types[float])
    .zeros 238 [0, 0, 1, 1],
    -- 1431: x188 += einsum("wia,wjb->jiba", g.bov, x122)
    .add 238 (.ein [(2, [0, 1, 2]), (236, [0, 3, 4])] [3, 1, 4, 2]) 1 1,
    -- 1432: x191 += einsum("ijab->jiba", x188)
    .add 90 (.ein [(238, [0, 1, 2, 3])] [1, 0, 3, 2]) 1 1,
    -- 1433: del x188
    .del 238,
    -- 1434: l1new += einsum("wab,wia->bi", g.bvv, x122)
    .add 82 (.ein [(3, [0, 1, 2]), (236, [0, 3, 1])] [2, 3]) 1 1,
    -- 1435: del x122
    .del 236,
    -- 1436: x123 += einsum("wab->wab", gc.bvv)
    .add 86 (.ein [(34, [0, 1, 2])] [0, 1, 2]) 1 1,
    -- 1437: l1new += einsum("wai,wab->bi", lu11, x123)
    .add 82 (.ein [(20, [0, 1, 2]), (86, [0, 1, 3])] [3, 2]) 1 1,
    -- 1438: del x123
    .del 86,
    -- 1439: x125 += einsum("wia->wia", gc.bov) * 2
    .add 70 (.ein [(32, [0, 1, 2])] [0, 1, 2]) 2 1,
    -- 1440: x128 += einsum("wia,xia->xw", u11, x125)
    .add 135 (.ein [(11, [0, 1, 2]), (70, [3, 1, 2])] [3, 0]) 1 1,
    -- 1441: del x125
    .del 70,
    -- 1442: x126 = np.zeros((nbos, nbos), dtype=types[float])
    .zeros 239 [2, 2],
    -- 1443: x126 += einsum("wia,xia->wx", g.bov, u11)
    .add 239 (.ein [(2, [0, 1, 2]), (11, [3, 1, 2])] [0, 3]) 1 1,
    -- 1444: x127 = np.zeros((nbos, nbos), dtype=types[float])
    .zeros 240 [2, 2],
    -- 1445: x127 += einsum("wx->wx", x126) * 2
    .add 240 (.ein [(239, [0, 1])] [0, 1]) 2 1,
    -- 1446: x217 = np.zeros((nbos, nbos), dtype=types[float])
    .zeros 241 [2, 2],
    -- 1447: x217 += einsum("wx,yx->yw", ls2, x126)
    .add 241 (.ein [(25, [0, 1]), (239, [2, 1])] [2, 0]) 1 1,
    -- 1448: x228 += einsum("wx->wx", x217) * 2
    .add 105 (.ein [(241, [0, 1])] [0, 1]) 2 1,
    -- 1449: del x217
    .del 241,
    -- 1450: x233 = np.zeros((nbos, nbos, nocc, nvir), dtype=types[float])
    .zeros 242 [2, 2, 0, 1],
    -- 1451: x233 += einsum("wx,xyai->wyia", x126, lu12)
    .add 242 (.ein [(239, [0, 1]), (13, [1, 2, 3, 4])] [0, 2, 4, 3]) 1 1,
    -- 1452: del x126
    .del 239,
    -- 1453: x236 -= einsum("wxia->wxia", x233) * 2
    .add 197 (.ein [(242, [0, 1, 2, 3])] [0, 1, 2, 3]) (-2) 1,
    -- 1454: del x233
    .del 242,
    -- 1455: x127 += einsum("wx->wx", w)
    .add 240 (.ein [(30, [0, 1])] [0, 1]) 1 1,
    -- 1456: x128 += einsum("wx,wy->xy", s2, x127)
    .add 135 (.ein [(24, [0, 1]), (240, [0, 2])] [1, 2]) 1 1,
    -- 1457: l1new += einsum("wx,xwai->ai", x128, lu12)
    .add 82 (.ein [(135, [0, 1]), (13, [1, 0, 2, 3])] [2, 3]) 1 1,
    -- 1458: del x128
    .del 135,
    -- 1459: x204 += einsum("wx,wia->xia", x127, u11) * -1
    .add 167 (.ein [(240, [0, 1]), (11, [0, 2, 3])] [1, 2, 3]) (-1) 1,
    -- 1460: del x127
    .del 240,
    -- 1461: x130 += einsum("ab->ab", f.vv)
    .add 88 (.ein [(27, [0, 1])] [0, 1]) 1 1,
    -- 1462: l1new += einsum("ai,ab->bi", l1, x130)
    .add 82 (.ein [(10, [0, 1]), (88, [0, 2])] [2, 1]) 1 1,
    -- 1463: del x130
    .del 88,
    -- 1464: x131 = np.zeros((nbos), dtype=types[float])
    .zeros 243 [2],
    -- 1465: x131 += einsum("w,wx->x", s1, w)
    .add 243 (.ein [(4, [0]), (30, [0, 1])] [1]) 1 1,
    -- 1466: x137 += einsum("w->w", x131)
    .add 231 (.ein [(243, [0])] [0]) 1 1,
    -- 1467: del x131
    .del 243,
    -- 1468: x132 = np.zeros((nbos), dtype=types[float])
    .zeros 244 [2],
    -- 1469: x132 += einsum("ia,wia->w", t1, gc.bov)
    .add 244 (.ein [(8, [0, 1]), (32, [2, 0, 1])] [2]) 1 1,
    -- 1470: x137 += einsum("w->w", x132) * 2
    .add 231 (.ein [(244, [0])] [0]) 2 1,
    -- 1471: del x132
    .del 244,
    -- 1472: x133 = np.zeros((nbos), dtype=types[float])
    .zeros 245 [2],
    -- 1473: x133 += einsum("wia,wxia->x", g.bov, u12)
    .add 245 (.ein [(2, [0, 1, 2]), (12, [0, 3, 1, 2])] [3]) 1 1,
    -- 1474: x137 += einsum("w->w", x133) * 2
    .add 231 (.ein [(245, [0])] [0]) 2 1,
    -- 1475: del x133
    .del 245,
    -- 1476: x135 += einsum("w->w", G)
    .add 185 (.ein [(28, [0])] [0]) 1 1,
    -- 1477: x136 = np.zeros((nbos), dtype=types[float])
    .zeros 246 [2],
    -- 1478: x136 += einsum("w,wx->x", x135, s2)
    .add 246 (.ein [(185, [0]), (24, [0, 1])] [1]) 1 1,
    -- 1479: x137 += einsum("w->w", x136)
    .add 231 (.ein [(246, [0])] [0]) 1 1,
    -- 1480: del x136
    .del 246,
    -- 1481: x228 += einsum("w,x->xw", ls1, x135)
    .add 105 (.ein [(23, [0]), (185, [1])] [1, 0]) 1 1,
    -- 1482: del x135
    .del 185,
    -- 1483: x137 += einsum("w->w", G)
    .add 231 (.ein [(28, [0])] [0]) 1 1,
    -- 1484: l1new += einsum("w,wai->ai", x137, lu11)
    .add 82 (.ein [(231, [0]), (20, [0, 1, 2])] [1, 2]) 1 1,
    -- 1485: ls1new += einsum("w,wx->x", x137, ls2)
    .add 202 (.ein [(231, [0]), (25, [0, 1])] [1]) 1 1,
    -- 1486: del x137
    .del 231,
    -- 1487: x138 = np.zeros((nbos), dtype=types[float])
    .zeros 247 [2],
    -- 1488: x138 += einsum("w->w", s1)
    .add 247 (.ein [(4, [0])] [0]) 1 1,
    -- 1489: x138 += einsum("w,xw->x", ls1, s2)
    .add 247 (.ein [(23, [0]), (24, [1, 0])] [1]) 1 1,
    -- 1490: x138 += einsum("ai,wia->w", l1, u11) * 2
    .add 247 (.ein [(10, [0, 1]), (11, [2, 1, 0])] [2]) 2 1,
    -- 1491: x138 += einsum("wai,wxia->x", lu11, u12) * 2
    .add 247 (.ein [(20, [0, 1, 2]), (12, [0, 3, 2, 1])] [3]) 2 1,
    -- 1492: l1new += einsum("w,wia->ai", x138, g.bov)
    .add 82 (.ein [(247, [0]), (2, [0, 1, 2])] [2, 1]) 1 1,
    -- 1493: del x138
    .del 247,
    -- 1494: x151 = np.zeros((nocc, nocc, nvir, nvir), dtype=types[float])
    .zeros 248 [0, 0, 1, 1],
    -- 1495: x151 += einsum("ai,jbac->ijbc", l1, v.ovvv)
    .add 248 (.ein [(10, [0, 1]), (7, [2, 3, 0, 4])] [1, 2, 3, 4]) 1 1,
    -- 1496: x170 -= einsum("ijab->ijab", x151)
    .add 61 (.ein [(248, [0, 1, 2, 3])] [0, 1, 2, 3]) (-1) 1,
    -- 1497: del x151
    .del 248,
    -- 1498: x155 = np.zeros((nocc, nocc, nvir, nvir), dtype=types[float])
    .zeros 249 [0, 0, 1, 1],
    -- 1499: x155 += einsum("ijab,kbic->jkac", t2, v.ovov)
    .add 249 (.ein [(6, [0, 1, 2, 3]), (9, [4, 3, 0, 5])] [1, 4, 2, 5]) 1 1,
    -- 1500: x156 -= einsum("ijab->ijab", x155)
    .add 123 (.ein [(249, [0, 1, 2, 3])] [0, 1, 2, 3]) (-1) 1,
    -- 1501: del x155
    .del 249,
    -- 1502: x156 += einsum("ijab->jiab", v.oovv)
    .add 123 (.ein [(15, [0, 1, 2, 3])] [1, 0, 2, 3]) 1 1,
    -- 1503: x157 = np.zeros((nocc, nocc, nvir, nvir), dtype=types[float])
    .zeros 250 [0, 0, 1, 1],
    -- 1504: x157 += einsum("abij,ikbc->kjca", l2, x156)
    .add 250 (.ein [(17, [0, 1, 2, 3]), (123, [2, 4, 1, 5])] [4, 3, 5, 0]) 1 1,
    -- 1505: x170 += einsum("ijab->jiba", x157)
    .add 61 (.ein [(250, [0, 1, 2, 3])] [1, 0, 3, 2]) 1 1,
    -- 1506: del x157
    .del 250,
    -- 1507: x180 = np.zeros((nocc, nocc, nvir, nvir), dtype=types[float])
    .zeros 251 [0, 0, 1, 1],
    -- 1508: x180 += einsum("abij,ikac->kjcb", l2, x156)
    .add 251 (.ein [(17, [0, 1, 2, 3]), (123, [2, 4, 0, 5])] [4, 3, 5, 1]) 1 1,
    -- 1509: del x156
    .del 123,
    -- 1510: x191 -= einsum("ijab->jiba", x180)
    .add 90 (.ein [(251, [0, 1, 2, 3])] [1, 0, 3, 2]) (-1) 1,
    -- 1511: del x180
    .del 251,
    -- 1512: x158 += einsum("ijka->jkia", v.ooov)
    .add 62 (.ein [(14, [0, 1, 2, 3])] [1, 2, 0, 3]) 1 1,
    -- 1513: x159 = np.zeros((nocc, nocc, nvir, nvir), dtype=types[float])
    .zeros 252 [0, 0, 1, 1],
    -- 1514: x159 += einsum("ijka,iljb->klab", x158, x32)
    .add 252 (.ein [(62, [0, 1, 2, 3]), (107, [0, 4, 1, 5])] [2, 4, 3, 5]) 1 1,
    -- 1515: x170 -= einsum("ijab->jiba", x159)
    .add 61 (.ein [(252, [0, 1, 2, 3])] [1, 0, 3, 2]) (-1) 1,
    -- 1516: del x159
    .del 252,
    -- 1517: x181 = np.zeros((nocc, nocc, nvir, nvir), dtype=types[float])
    .zeros 253 [0, 0, 1, 1],
    -- 1518: x181 += einsum("ijka,likb->ljba", x158, x38)
    .add 253 (.ein [(62, [0, 1, 2, 3]), (109, [4, 0, 2, 5])] [4, 1, 5, 3]) 1 1,
    -- 1519: del x38
    .del 109,
    -- 1520: x191 -= einsum("ijab->ijab", x181)
    .add 90 (.ein [(253, [0, 1, 2, 3])] [0, 1, 2, 3]) (-1) 1,
    -- 1521: del x181
    .del 253,
    -- 1522: x182 = np.zeros((nocc, nocc, nvir, nvir), dtype=types[float])
    .zeros 254 [0, 0, 1, 1],
    -- 1523: x182 += einsum("ijka,lijb->klab", x158, x32)
    .add 254 (.ein [(62, [0, 1, 2, 3]), (107, [4, 0, 1, 5])] [2, 4, 3, 5]) 1 1,
    -- 1524: del x158
    .del 62,
    -- 1525: x191 += einsum("ijab->jiba", x182)
    .add 90 (.ein [(254, [0, 1, 2, 3])] [1, 0, 3, 2]) 1 1,
    -- 1526: del x182
    .del 254,
    -- 1527: x160 = np.zeros((nvir, nvir), dtype=types[float])
    .zeros 255 [1, 1],
    -- 1528: x160 += einsum("wia,wib->ab", g.bov, u11)
    .add 255 (.ein [(2, [0, 1, 2]), (11, [0, 1, 3])] [2, 3]) 1 1,
    -- 1529: x161 -= einsum("ab->ba", x160)
    .add 177 (.ein [(255, [0, 1])] [1, 0]) (-1) 1,
    -- 1530: x198 += einsum("ab->ba", x160) * -1
    .add 178 (.ein [(255, [0, 1])] [1, 0]) (-1) 1,
    -- 1531: del x160
    .del 255,
    -- 1532: x161 += einsum("ab->ab", f.vv)
    .add 177 (.ein [(27, [0, 1])] [0, 1]) 1 1,
    -- 1533: x162 = np.zeros((nocc, nocc, nvir, nvir), dtype=types[float])
    .zeros 256 [0, 0, 1, 1],
    -- 1534: x162 += einsum("ab,acij->ijbc", x161, l2)
    .add 256 (.ein [(177, [0, 1]), (17, [0, 2, 3, 4])] [3, 4, 1, 2]) 1 1,
    -- 1535: del x161
    .del 177,
    -- 1536: x170 -= einsum("ijab->jiab", x162)
    .add 61 (.ein [(256, [0, 1, 2, 3])] [1, 0, 2, 3]) (-1) 1,
    -- 1537: del x162
    .del 256,
    -- 1538: x163 += einsum("ia->ia", f.ov)
    .add 40 (.ein [(5, [0, 1])] [0, 1]) 1 1,
    -- 1539: x164 = np.zeros((nocc, nocc), dtype=types[float])
    .zeros 257 [0, 0],
    -- 1540: x164 += einsum("ia,ja->ji", t1, x163)
    .add 257 (.ein [(8, [0, 1]), (40, [2, 1])] [2, 0]) 1 1,
    -- 1541: x165 += einsum("ij->ij", x164)
    .add 170 (.ein [(257, [0, 1])] [0, 1]) 1 1,
    -- 1542: del x164
    .del 257,
    -- 1543: x169 = np.zeros((nocc, nocc, nvir, nvir), dtype=types[float])
    .zeros 258 [0, 0, 1, 1],
    -- 1544: x169 += einsum("ia,jkib->jkab", x163, x32)
    .add 258 (.ein [(40, [0, 1]), (107, [2, 3, 0, 4])] [2, 3, 1, 4]) 1 1,
    -- 1545: del x32
    .del 107,
    -- 1546: x170 += einsum("ijab->ijab", x169)
    .add 61 (.ein [(258, [0, 1, 2, 3])] [0, 1, 2, 3]) 1 1,
    -- 1547: del x169
    .del 258,
    -- 1548: x191 += einsum("ai,jb->jiba", l1, x163)
    .add 90 (.ein [(10, [0, 1]), (40, [2, 3])] [2, 1, 3, 0]) 1 1,
    -- 1549: del x163
    .del 40,
    -- 1550: x165 += einsum("ij->ij", f.oo)
    .add 170 (.ein [(26, [0, 1])] [0, 1]) 1 1,
    -- 1551: x166 = np.zeros((nocc, nocc, nvir, nvir), dtype=types[float])
    .zeros 259 [0, 0, 1, 1],
    -- 1552: x166 += einsum("ij,abjk->ikab", x165, l2)
    .add 259 (.ein [(170, [0, 1]), (17, [2, 3, 1, 4])] [0, 4, 2, 3]) 1 1,
    -- 1553: del x165
    .del 170,
    -- 1554: x170 += einsum("ijab->ijba", x166)
    .add 61 (.ein [(259, [0, 1, 2, 3])] [0, 1, 3, 2]) 1 1,
    -- 1555: del x166
    .del 259,
    -- 1556: l2new -= einsum("ijab->baij", x170)
    .add 131 (.ein [(61, [0, 1, 2, 3])] [3, 2, 0, 1]) (-1) 1,
    -- 1557: l2new -= einsum("ijab->abji", x170)
    .add 131 (.ein [(61, [0, 1, 2, 3])] [2, 3, 1, 0]) (-1) 1,
    -- 1558: del x170
    .del 61,
    -- 1559: x171 = np.zeros((nocc, nocc, nvir, nvir), dtype=types[float])
    .zeros 260 [0, 0, 1, 1],
    -- 1560: x171 += einsum("wia,wbj->ijab", gc.bov, lu11)
    .add 260 (.ein [(32, [0, 1, 2]), (20, [0, 3, 4])] [1, 4, 2, 3]) 1 1,
    -- 1561: x191 += einsum("ijab->ijab", x171)
    .add 90 (.ein [(260, [0, 1, 2, 3])] [0, 1, 2, 3]) 1 1,
    -- 1562: del x171
    .del 260,
    -- 1563: x172 = np.zeros((nocc, nocc, nvir, nvir), dtype=types[float])
    .zeros 261 [0, 0, 1, 1],
    -- 1564: x172 += einsum("ai,jikb->jkab", l1, v.ooov)
    .add 261 (.ein [(10, [0, 1]), (14, [2, 1, 3, 4])] [2, 3, 0, 4]) 1 1,
    -- 1565: x191 -= einsum("ijab->ijab", x172)
    .add 90 (.ein [(261, [0, 1, 2, 3])] [0, 1, 2, 3]) (-1) 1,
    -- 1566: del x172
    .del 261,
    -- 1567: x174 = np.zeros((nocc, nocc, nvir, nvir), dtype=types[float])
    .zeros 262 [0, 0, 1, 1],
    -- 1568: x174 -= einsum("abij->jiab", l2)
    .add 262 (.ein [(17, [0, 1, 2, 3])] [3, 2, 0, 1]) (-1) 1,
    -- 1569: x174 += einsum("abij->jiba", l2) * 2
    .add 262 (.ein [(17, [0, 1, 2, 3])] [3, 2, 1, 0]) 2 1,
    -- 1570: x175 = np.zeros((nocc, nocc, nvir, nvir), dtype=types[float])
    .zeros 263 [0, 0, 1, 1],
    -- 1571: x175 += einsum("ijab,kaic->jkbc", t2, v.ovov)
    .add 263 (.ein [(6, [0, 1, 2, 3]), (9, [4, 2, 0, 5])] [1, 4, 3, 5]) 1 1,
    -- 1572: x178 -= einsum("ijab->ijab", x175)
    .add 48 (.ein [(263, [0, 1, 2, 3])] [0, 1, 2, 3]) (-1) 1,
    -- 1573: del x175
    .del 263,
    -- 1574: x176 = np.zeros((nocc, nocc, nvir, nvir), dtype=types[float])
    .zeros 264 [0, 0, 1, 1],
    -- 1575: x176 -= einsum("ijab->jiab", t2)
    .add 264 (.ein [(6, [0, 1, 2, 3])] [1, 0, 2, 3]) (-1) 1,
    -- 1576: x176 += einsum("ijab->jiba", t2) * 2
    .add 264 (.ein [(6, [0, 1, 2, 3])] [1, 0, 3, 2]) 2 1,
    -- 1577: x177 = np.zeros((nocc, nocc, nvir, nvir), dtype=types[float])
    .zeros 265 [0, 0, 1, 1],
    -- 1578: x177 += einsum("iajb,ikac->kjcb", v.ovov, x176)
    .add 265 (.ein [(9, [0, 1, 2, 3]), (264, [0, 4, 1, 5])] [4, 2, 5, 3]) 1 1,
    -- 1579: del x176
    .del 264,
    -- 1580: x178 += einsum("ijab->ijab", x177)
    .add 48 (.ein [(265, [0, 1, 2, 3])] [0, 1, 2, 3]) 1 1,
    -- 1581: del x177
    .del 265,
    -- 1582: x178 += einsum("iabj->jiba", v.ovvo)
    .add 48 (.ein [(16, [0, 1, 2, 3])] [3, 0, 2, 1]) 1 1,
    -- 1583: x179 = np.zeros((nocc, nocc, nvir, nvir), dtype=types[float])
    .zeros 266 [0, 0, 1, 1],
    -- 1584: x179 += einsum("ijab,ikac->jkbc", x174, x178)
    .add 266 (.ein [(262, [0, 1, 2, 3]), (48, [0, 4, 2, 5])] [1, 4, 3, 5]) 1 1,
    -- 1585: del x178
    .del 48,
    -- 1586: del x174
    .del 262,
    -- 1587: x191 += einsum("ijab->ijab", x179)
    .add 90 (.ein [(266, [0, 1, 2, 3])] [0, 1, 2, 3]) 1 1,
    -- 1588: del x179
    .del 266,
    -- 1589: l2new += einsum("ijab->abij", x191)
    .add 131 (.ein [(90, [0, 1, 2, 3])] [2, 3, 0, 1]) 1 1,
    -- 1590: l2new += einsum("ijab->baji", x191)
    .add 131 (.ein [(90, [0, 1, 2, 3])] [3, 2, 1, 0]) 1 1,
    -- 1591: del x191
    .del 90,
    -- 1592: x192 += einsum("ijkl->kilj", v.oooo)
    .add 51 (.ein [(18, [0, 1, 2, 3])] [2, 0, 3, 1]) 1 1,
    -- 1593: l2new += einsum("abij,klij->balk", l2, x192)
    .add 131 (.ein [(17, [0, 1, 2, 3]), (51, [4, 5, 2, 3])] [1, 0, 5, 4]) 1 1,
    -- 1594: del x192
    .del 51,
    -- 1595: x194 += einsum("wia->wia", gc.bov)
    .add 71 (.ein [(32, [0, 1, 2])] [0, 1, 2]) 1 1,
    -- 1596: x204 += einsum("wia,ijba->wjb", x194, x33) * -1
    .add 167 (.ein [(71, [0, 1, 2]), (118, [1, 3, 4, 2])] [0, 3, 4]) (-1) 1,
    -- 1597: del x33
    .del 118,
    -- 1598: del x194
    .del 71,
    -- 1599: x195 = np.zeros((nocc, nocc, nvir, nvir), dtype=types[float])
    .zeros 267 [0, 0, 1, 1],
    -- 1600: x195 += einsum("iabj->ijba", v.ovvo) * 2
    .add 267 (.ein [(16, [0, 1, 2, 3])] [0, 3, 2, 1]) 2 1,
    -- 1601: x195 += einsum("ijab->ijab", v.oovv) * -1
    .add 267 (.ein [(15, [0, 1, 2, 3])] [0, 1, 2, 3]) (-1) 1,
    -- 1602: x204 += einsum("wia,ijba->wjb", u11, x195) * -1
    .add 167 (.ein [(11, [0, 1, 2]), (267, [1, 3, 4, 2])] [0, 3, 4]) (-1) 1,
    -- 1603: del x195
    .del 267,
    -- 1604: x196 = np.zeros((nocc, nocc, nvir, nvir), dtype=types[float])
    .zeros 268 [0, 0, 1, 1],
    -- 1605: x196 += einsum("ijab->jiab", t2) * -1
    .add 268 (.ein [(6, [0, 1, 2, 3])] [1, 0, 2, 3]) (-1) 1,
    -- 1606: x196 += einsum("ijab->jiba", t2) * 2
    .add 268 (.ein [(6, [0, 1, 2, 3])] [1, 0, 3, 2]) 2 1,
    -- 1607: x197 = np.zeros((nvir, nvir), dtype=types[float])
    .zeros 269 [1, 1],
    -- 1608: x197 += einsum("iajb,ijcb->ca", v.ovov, x196)
    .add 269 (.ein [(9, [0, 1, 2, 3]), (268, [0, 2, 4, 3])] [4, 1]) 1 1,
    -- 1609: del x196
    .del 268,
    -- 1610: x198 += einsum("ab->ab", x197) * -1
    .add 178 (.ein [(269, [0, 1])] [0, 1]) (-1) 1,
    -- 1611: del x197
    .del 269,
    -- 1612: x198 += einsum("ab->ab", f.vv)
    .add 178 (.ein [(27, [0, 1])] [0, 1]) 1 1,
    -- 1613: x204 += einsum("ab,wib->wia", x198, u11) * -1
    .add 167 (.ein [(178, [0, 1]), (11, [2, 3, 1])] [2, 3, 0]) (-1) 1,
    -- 1614: lu12new += einsum("ab,wxai->xwbi", x198, lu12)
    .add 106 (.ein [(178, [0, 1]), (13, [2, 3, 0, 4])] [3, 2, 1, 4]) 1 1,
    -- 1615: del x198
    .del 178,
    -- 1616: x199 += einsum("wia->wia", gc.bov)
    .add 72 (.ein [(32, [0, 1, 2])] [0, 1, 2]) 1 1,
    -- 1617: x200 += einsum("ia,wja->wji", t1, x199)
    .add 136 (.ein [(8, [0, 1]), (72, [2, 3, 1])] [2, 3, 0]) 1 1,
    -- 1618: del x199
    .del 72,
    -- 1619: x200 += einsum("wij->wij", gc.boo)
    .add 136 (.ein [(31, [0, 1, 2])] [0, 1, 2]) 1 1,
    -- 1620: x204 += einsum("ia,wij->wja", t1, x200)
    .add 167 (.ein [(8, [0, 1]), (136, [2, 0, 3])] [2, 3, 1]) 1 1,
    -- 1621: del x200
    .del 136,
    -- 1622: x201 += einsum("wab->wab", gc.bvv)
    .add 181 (.ein [(34, [0, 1, 2])] [0, 1, 2]) 1 1,
    -- 1623: x204 += einsum("ia,wba->wib", t1, x201) * -1
    .add 167 (.ein [(8, [0, 1]), (181, [2, 3, 1])] [2, 0, 3]) (-1) 1,
    -- 1624: del x201
    .del 181,
    -- 1625: x202 = np.zeros((nbos, nocc, nvir), dtype=types[float])
    .zeros 270 [2, 0, 1],
    -- 1626: x202 += einsum("ia,wba->wib", t1, g.bvv)
    .add 270 (.ein [(8, [0, 1]), (3, [2, 3, 1])] [2, 0, 3]) 1 1,
    -- 1627: x203 = np.zeros((nbos, nocc, nvir), dtype=types[float])
    .zeros 271 [2, 0, 1],
    -- 1628: x203 += einsum("wia->wia", x202)
    .add 271 (.ein [(270, [0, 1, 2])] [0, 1, 2]) 1 1,
    -- 1629: x225 += einsum("wia->wia", x202)
    .add 93 (.ein [(270, [0, 1, 2])] [0, 1, 2]) 1 1,
    -- 1630: del x202
    .del 270,
    -- 1631: x203 += einsum("wai->wia", g.bvo)
    .add 271 (.ein [(1, [0, 1, 2])] [0, 2, 1]) 1 1,
    -- 1632: x204 += einsum("wx,wia->xia", s2, x203) * -1
    .add 167 (.ein [(24, [0, 1]), (271, [0, 2, 3])] [1, 2, 3]) (-1) 1,
    -- 1633: del x203
    .del 271,
    -- 1634: x204 += einsum("wai->wia", gc.bvo) * -1
    .add 167 (.ein [(33, [0, 1, 2])] [0, 2, 1]) (-1) 1,
    -- 1635: x204 += einsum("wab,wxib->xia", g.bvv, u12) * -1
    .add 167 (.ein [(3, [0, 1, 2]), (12, [0, 3, 4, 2])] [3, 4, 1]) (-1) 1,
    -- 1636: ls1new += einsum("wia,wxai->x", x204, lu12) * -2
    .add 202 (.ein [(167, [0, 1, 2]), (13, [0, 3, 2, 1])] [3]) (-2) 1,
    -- 1637: del x204
    .del 167,
    -- 1638: x213 += einsum("ai->ia", f.vo) * 0.5
    .add 140 (.ein [(29, [0, 1])] [1, 0]) 1 2,
    -- 1639: ls1new += einsum("ia,wai->w", x213, lu11) * 4
    .add 202 (.ein [(140, [0, 1]), (20, [2, 1, 0])] [2]) 4 1,
    -- 1640: ls2new = np.zeros((nbos, nbos), dtype=types[float])
    .zeros 272 [2, 2],
    -- 1641: ls2new += einsum("ia,wxai->xw", x213, lu12) * 4
    .add 272 (.ein [(140, [0, 1]), (13, [2, 3, 1, 0])] [3, 2]) 4 1,
    -- 1642: del x213
    .del 140,
    -- 1643: x216 = np.zeros((nbos, nbos), dtype=types[float])
    .zeros 273 [2, 2],
    -- 1644: x216 += einsum("wx,yx->wy", ls2, w)
    .add 273 (.ein [(25, [0, 1]), (30, [2, 1])] [0, 2]) 1 1,
    -- 1645: x228 += einsum("wx->wx", x216)
    .add 105 (.ein [(273, [0, 1])] [0, 1]) 1 1,
    -- 1646: del x216
    .del 273,
    -- 1647: x219 = np.zeros((nbos, nvir, nvir), dtype=types[float])
    .zeros 274 [2, 1, 1],
    -- 1648: x219 += einsum("wia,wxbi->xba", u11, lu12)
    .add 274 (.ein [(11, [0, 1, 2]), (13, [0, 3, 4, 1])] [3, 4, 2]) 1 1,
    -- 1649: x220 = np.zeros((nbos, nbos), dtype=types[float])
    .zeros 275 [2, 2],
    -- 1650: x220 += einsum("wab,xab->wx", g.bvv, x219)
    .add 275 (.ein [(3, [0, 1, 2]), (274, [3, 1, 2])] [0, 3]) 1 1,
    -- 1651: x228 += einsum("wx->wx", x220) * 2
    .add 105 (.ein [(275, [0, 1])] [0, 1]) 2 1,
    -- 1652: del x220
    .del 275,
    -- 1653: x232 = np.zeros((nbos, nbos, nocc, nvir), dtype=types[float])
    .zeros 276 [2, 2, 0, 1],
    -- 1654: x232 += einsum("wia,xba->wxib", g.bov, x219)
    .add 276 (.ein [(2, [0, 1, 2]), (274, [3, 4, 2])] [0, 3, 1, 4]) 1 1,
    -- 1655: del x219
    .del 274,
    -- 1656: x236 += einsum("wxia->wxia", x232)
    .add 197 (.ein [(276, [0, 1, 2, 3])] [0, 1, 2, 3]) 1 1,
    -- 1657: del x232
    .del 276,
    -- 1658: x225 += einsum("wai->wia", g.bvo)
    .add 93 (.ein [(1, [0, 1, 2])] [0, 2, 1]) 1 1,
    -- 1659: x226 = np.zeros((nbos, nbos), dtype=types[float])
    .zeros 277 [2, 2],
    -- 1660: x226 += einsum("wai,xia->xw", lu11, x225)
    .add 277 (.ein [(20, [0, 1, 2]), (93, [3, 2, 1])] [3, 0]) 1 1,
    -- 1661: del x225
    .del 93,
    -- 1662: x228 += einsum("wx->wx", x226) * 2
    .add 105 (.ein [(277, [0, 1])] [0, 1]) 2 1,
    -- 1663: del x226
    .del 277,
    -- 1664: ls2new += einsum("wx->wx", x228)
    .add 272 (.ein [(105, [0, 1])] [0, 1]) 1 1,
    -- 1665: ls2new += einsum("wx->xw", x228)
    .add 272 (.ein [(105, [0, 1])] [1, 0]) 1 1,
    -- 1666: del x228
    .del 105,
    -- 1667: x229 = np.zeros((nbos, nbos, nbos), dtype=types[float])
    .zeros 278 [2, 2, 2],
    -- 1668: x229 += einsum("wia,xyai->xyw", u11, lu12)
    .add 278 (.ein [(11, [0, 1, 2]), (13, [3, 4, 2, 1])] [3, 4, 0]) 1 1,
    -- 1669: lu12new += einsum("wia,xyw->yxai", g.bov, x229) * 2
    .add 106 (.ein [(2, [0, 1, 2]), (278, [3, 4, 0])] [4, 3, 2, 1]) 2 1,
    -- 1670: del x229
    .del 278,
    -- 1671: x230 = np.zeros((nbos, nbos, nocc, nvir), dtype=types[float])
    .zeros 279 [2, 2, 0, 1],
    -- 1672: x230 += einsum("wx,xyai->ywia", w, lu12)
    .add 279 (.ein [(30, [0, 1]), (13, [1, 2, 3, 4])] [2, 0, 4, 3]) 1 1,
    -- 1673: x236 -= einsum("wxia->wxia", x230)
    .add 197 (.ein [(279, [0, 1, 2, 3])] [0, 1, 2, 3]) (-1) 1,
    -- 1674: del x230
    .del 279,
    -- 1675: x231 = np.zeros((nbos, nbos, nocc, nvir), dtype=types[float])
    .zeros 280 [2, 2, 0, 1],
    -- 1676: x231 += einsum("wab,xai->wxib", g.bvv, lu11)
    .add 280 (.ein [(3, [0, 1, 2]), (20, [3, 1, 4])] [0, 3, 4, 2]) 1 1,
    -- 1677: x236 -= einsum("wxia->wxia", x231)
    .add 197 (.ein [(280, [0, 1, 2, 3])] [0, 1, 2, 3]) (-1) 1,
    -- 1678: del x231
    .del 280,
    -- 1679: lu12new -= einsum("wxia->wxai", x236)
    .add 106 (.ein [(197, [0, 1, 2, 3])] [0, 1, 3, 2]) (-1) 1,
    -- 1680: lu12new -= einsum("wxia->xwai", x236)
    .add 106 (.ein [(197, [0, 1, 2, 3])] [1, 0, 3, 2]) (-1) 1,
    -- 1681: del x236
    .del 197,
    -- 1682: x238 += einsum("iabj->ijba", v.ovvo) * 2
    .add 125 (.ein [(16, [0, 1, 2, 3])] [0, 3, 2, 1]) 2 1,
    -- 1683: x238 -= einsum("ijab->ijab", v.oovv)
    .add 125 (.ein [(15, [0, 1, 2, 3])] [0, 1, 2, 3]) (-1) 1,
    -- 1684: lu12new += einsum("wxai,jiab->xwbj", lu12, x238)
    .add 106 (.ein [(13, [0, 1, 2, 3]), (125, [4, 3, 2, 5])] [1, 0, 5, 4]) 1 1,
    -- 1685: del x238
    .del 125,
    -- 1686: l1new += einsum("ia->ai", f.ov)
    .add 82 (.ein [(5, [0, 1])] [1, 0]) 1 1,
    -- 1687: l1new += einsum("w,wia->ai", ls1, gc.bov)
    .add 82 (.ein [(23, [0]), (32, [0, 1, 2])] [2, 1]) 1 1,
    -- 1688: l2new += einsum("abij,acbd->dcji", l2, v.vvvv)
    .add 131 (.ein [(17, [0, 1, 2, 3]), (21, [0, 4, 1, 5])] [5, 4, 3, 2]) 1 1,
    -- 1689: l2new += einsum("iajb->baji", v.ovov)
    .add 131 (.ein [(9, [0, 1, 2, 3])] [3, 1, 2, 0]) 1 1,
    -- 1690: ls1new += einsum("w->w", G)
    .add 202 (.ein [(28, [0])] [0]) 1 1,
    -- 1691: ls1new += einsum("w,xw->x", ls1, w)
    .add 202 (.ein [(23, [0]), (30, [1, 0])] [1]) 1 1,
    -- 1692: ls1new += einsum("ai,wai->w", l1, g.bvo) * 2
    .add 202 (.ein [(10, [0, 1]), (1, [2, 0, 1])] [2]) 2 1,
    -- 1693: lu11new -= einsum("ij,waj->wai", f.oo, lu11)
    .add 96 (.ein [(26, [0, 1]), (20, [2, 3, 1])] [2, 3, 0]) (-1) 1,
    -- 1694: lu11new -= einsum("ai,wji->waj", l1, g.boo)
    .add 96 (.ein [(10, [0, 1]), (0, [2, 3, 1])] [2, 0, 3]) (-1) 1,
    -- 1695: lu11new -= einsum("wij,xwaj->xai", gc.boo, lu12)
    .add 96 (.ein [(31, [0, 1, 2]), (13, [3, 0, 4, 2])] [3, 4, 1]) (-1) 1,
    -- 1696: lu11new += einsum("wab,xwai->xbi", gc.bvv, lu12)
    .add 96 (.ein [(34, [0, 1, 2]), (13, [3, 0, 1, 4])] [3, 2, 4]) 1 1,
    -- 1697: lu11new += einsum("ab,wai->wbi", f.vv, lu11)
    .add 96 (.ein [(27, [0, 1]), (20, [2, 0, 3])] [2, 1, 3]) 1 1,
    -- 1698: lu11new += einsum("ai,wab->wbi", l1, g.bvv)
    .add 96 (.ein [(10, [0, 1]), (3, [2, 0, 3])] [2, 3, 1]) 1 1,
    -- 1699: lu11new += einsum("wia->wai", g.bov)
    .add 96 (.ein [(2, [0, 1, 2])] [0, 2, 1]) 1 1,
    -- 1700: lu11new += einsum("w,xwai->xai", G, lu12)
    .add 96 (.ein [(28, [0]), (13, [1, 0, 2, 3])] [1, 2, 3]) 1 1,
    -- 1701: lu11new += einsum("wx,xia->wai", ls2, gc.bov)
    .add 96 (.ein [(25, [0, 1]), (32, [1, 2, 3])] [0, 3, 2]) 1 1,
    -- 1702: lu11new += einsum("wx,xai->wai", w, lu11)
    .add 96 (.ein [(30, [0, 1]), (20, [1, 2, 3])] [0, 2, 3]) 1 1
  ]
  ret := [(chars! "l1new", 82), (chars! "l2new", 131), (chars! "ls1new", 202), (chars! "ls2new", 272), (chars! "lu11new", 96), (chars! "lu12new", 106)]

end Ebcc.Gen.RCCSD_SD_1_2
