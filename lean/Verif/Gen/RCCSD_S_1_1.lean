import Verif.Model.GenCode
/-!
Functions of `ebcc/codegen/RCCSD_S_1_1.py`, written by `tools/gencode.py`.  Comments give the
number and the text of the line of each statement.
-/

set_option maxRecDepth 100000

namespace Ebcc.Gen.RCCSD_S_1_1

/-- codegen/RCCSD_S_1_1.py:7-31 `energy`. -/
def energy : GenFun where
  args := [chars! "v.ovov", chars! "t2", chars! "t1", chars! "f.ov", chars! "u11", chars! "s1", chars! "g.bov", chars! "G"]
  body := [
    -- 9: x0 = np.zeros((nocc, nocc, nvir, nvir), dtype=types[float])
    .zeros 8 [0, 0, 1, 1],
    -- 10: x0 += einsum("iajb->jiab", v.ovov)
    .add 8 (.ein [(0, [0, 1, 2, 3])] [2, 0, 1, 3]) 1 1,
    -- 11: x0 += einsum("iajb->jiba", v.ovov) * -0.5
    .add 8 (.ein [(0, [0, 1, 2, 3])] [2, 0, 3, 1]) (-1) 2,
    -- 12: e_cc = 0
    .zeros 9 [],
    -- 13: e_cc += einsum("ijab,ijba->", t2, x0) * 2
    .add 9 (.ein [(1, [0, 1, 2, 3]), (8, [0, 1, 3, 2])] []) 2 1,
    -- 14: del x0
    .del 8,
    -- 15: x1 = np.zeros((nocc, nocc, nvir, nvir), dtype=types[float])
    .zeros 10 [0, 0, 1, 1],
    -- 16: x1 += einsum("iajb->jiab", v.ovov) * -0.5
    .add 10 (.ein [(0, [0, 1, 2, 3])] [2, 0, 1, 3]) (-1) 2,
    -- 17: x1 += einsum("iajb->jiba", v.ovov)
    .add 10 (.ein [(0, [0, 1, 2, 3])] [2, 0, 3, 1]) 1 1,
    -- 18: x2 = np.zeros((nocc, nvir), dtype=types[float])
    .zeros 11 [0, 1],
    -- 19: x2 += einsum("ia,ijab->jb", t1, x1)
    .add 11 (.ein [(2, [0, 1]), (10, [0, 2, 1, 3])] [2, 3]) 1 1,
    -- 20: del x1
    .del 10,
    -- 21: x2 += einsum("ia->ia", f.ov)
    .add 11 (.ein [(3, [0, 1])] [0, 1]) 1 1,
    -- 22: e_cc += einsum("ia,ia->", t1, x2) * 2
    .add 9 (.ein [(2, [0, 1]), (11, [0, 1])] []) 2 1,
    -- 23: del x2
    .del 11,
    -- 24: x3 = np.zeros((nbos, nocc, nvir), dtype=types[float])
    .zeros 12 [2, 0, 1],
    -- 25: x3 += einsum("wia->wia", u11)
    .add 12 (.ein [(4, [0, 1, 2])] [0, 1, 2]) 1 1,
    -- 26: x3 += einsum("w,ia->wia", s1, t1)
    .add 12 (.ein [(5, [0]), (2, [1, 2])] [0, 1, 2]) 1 1,
    -- 27: e_cc += einsum("wia,wia->", g.bov, x3) * 2
    .add 9 (.ein [(6, [0, 1, 2]), (12, [0, 1, 2])] []) 2 1,
    -- 28: del x3
    .del 12,
    -- 29: e_cc += einsum("w,w->", G, s1)
    .add 9 (.ein [(7, [0]), (5, [0])] []) 1 1
  ]
  ret := [(chars! "e_cc", 9)]

/-- codegen/RCCSD_S_1_1.py:33-479 `update_amps`. -/
def update_amps : GenFun where
  args := [chars! "g.boo", chars! "g.bvo", chars! "g.bov", chars! "g.bvv", chars! "t1", chars! "v.ovov", chars! "t2", chars! "v.ooov", chars! "v.ovvv", chars! "s1", chars! "u11", chars! "f.ov", chars! "v.ovvo", chars! "v.oovv", chars! "f.oo", chars! "f.vv", chars! "G", chars! "v.vvvv", chars! "v.vovv", chars! "v.oooo", chars! "v.oovo", chars! "w", chars! "f.vo", chars! "v.vovo"]
  body := [
    -- 35: gc = Namespace(
    .set 24 (.tr 0 [0, 2, 1]) 1 1,
    .set 25 (.tr 1 [0, 2, 1]) 1 1,
    .set 26 (.tr 2 [0, 2, 1]) 1 1,
    .set 27 (.tr 3 [0, 2, 1]) 1 1,
    -- 43: x0 = np.zeros((nocc, nocc, nocc, nvir), dtype=types[float])
    .zeros 28 [0, 0, 0, 1],
    -- 44: x0 += einsum("ia,jakb->ikjb", t1, v.ovov)
    .add 28 (.ein [(4, [0, 1]), (5, [2, 1, 3, 4])] [0, 3, 2, 4]) 1 1,
    -- 45: x1 = np.zeros((nocc, nocc, nocc, nvir), dtype=types[float])
    .zeros 29 [0, 0, 0, 1],
    -- 46: x1 += einsum("ijka->ijka", x0) * 2
    .add 29 (.ein [(28, [0, 1, 2, 3])] [0, 1, 2, 3]) 2 1,
    -- 47: x1 += einsum("ijka->ikja", x0) * -1
    .add 29 (.ein [(28, [0, 1, 2, 3])] [0, 2, 1, 3]) (-1) 1,
    -- 48: x27 = np.zeros((nocc, nocc, nocc, nocc), dtype=types[float])
    .zeros 30 [0, 0, 0, 0],
    -- 49: x27 += einsum("ia,jkla->jilk", t1, x0)
    .add 30 (.ein [(4, [0, 1]), (28, [2, 3, 4, 1])] [2, 0, 4, 3]) 1 1,
    -- 50: x88 = np.zeros((nocc, nocc, nocc, nocc), dtype=types[float])
    .zeros 31 [0, 0, 0, 0],
    -- 51: x88 += einsum("ijkl->lkji", x27)
    .add 31 (.ein [(30, [0, 1, 2, 3])] [3, 2, 1, 0]) 1 1,
    -- 52: t2new = np.zeros((nocc, nocc, nvir, nvir), dtype=types[float])
    .zeros 32 [0, 0, 1, 1],
    -- 53: t2new += einsum("ijab,klji->lkab", t2, x27)
    .add 32 (.ein [(6, [0, 1, 2, 3]), (30, [4, 5, 1, 0])] [5, 4, 2, 3]) 1 1,
    -- 54: del x27
    .del 30,
    -- 55: x35 = np.zeros((nocc, nocc, nocc, nvir), dtype=types[float])
    .zeros 33 [0, 0, 0, 1],
    -- 56: x35 += einsum("ijab,kjla->kilb", t2, x0)
    .add 33 (.ein [(6, [0, 1, 2, 3]), (28, [4, 1, 5, 2])] [4, 0, 5, 3]) 1 1,
    -- 57: x41 = np.zeros((nocc, nocc, nocc, nvir), dtype=types[float])
    .zeros 34 [0, 0, 0, 1],
    -- 58: x41 -= einsum("ijka->ikja", x35)
    .add 34 (.ein [(33, [0, 1, 2, 3])] [0, 2, 1, 3]) (-1) 1,
    -- 59: del x35
    .del 33,
    -- 60: x36 = np.zeros((nocc, nocc, nocc, nvir), dtype=types[float])
    .zeros 35 [0, 0, 0, 1],
    -- 61: x36 -= einsum("ijka->ijka", x0)
    .add 35 (.ein [(28, [0, 1, 2, 3])] [0, 1, 2, 3]) (-1) 1,
    -- 62: x36 += einsum("ijka->ikja", x0) * 2
    .add 35 (.ein [(28, [0, 1, 2, 3])] [0, 2, 1, 3]) 2 1,
    -- 63: x37 = np.zeros((nocc, nocc, nocc, nvir), dtype=types[float])
    .zeros 36 [0, 0, 0, 1],
    -- 64: x37 += einsum("ijab,klia->jklb", t2, x36)
    .add 36 (.ein [(6, [0, 1, 2, 3]), (35, [4, 5, 0, 2])] [1, 4, 5, 3]) 1 1,
    -- 65: del x36
    .del 35,
    -- 66: x41 += einsum("ijka->jkia", x37)
    .add 34 (.ein [(36, [0, 1, 2, 3])] [1, 2, 0, 3]) 1 1,
    -- 67: del x37
    .del 36,
    -- 68: x65 = np.zeros((nocc, nocc, nocc, nvir), dtype=types[float])
    .zeros 37 [0, 0, 0, 1],
    -- 69: x65 += einsum("ijab,klja->kilb", t2, x0)
    .add 37 (.ein [(6, [0, 1, 2, 3]), (28, [4, 5, 1, 2])] [4, 0, 5, 3]) 1 1,
    -- 70: del x0
    .del 28,
    -- 71: x69 = np.zeros((nocc, nocc, nocc, nvir), dtype=types[float])
    .zeros 38 [0, 0, 0, 1],
    -- 72: x69 -= einsum("ijka->kija", x65)
    .add 38 (.ein [(37, [0, 1, 2, 3])] [2, 0, 1, 3]) (-1) 1,
    -- 73: del x65
    .del 37,
    -- 74: x1 += einsum("ijka->jika", v.ooov) * -1
    .add 29 (.ein [(7, [0, 1, 2, 3])] [1, 0, 2, 3]) (-1) 1,
    -- 75: x1 += einsum("ijka->jkia", v.ooov) * 2
    .add 29 (.ein [(7, [0, 1, 2, 3])] [1, 2, 0, 3]) 2 1,
    -- 76: t1new = np.zeros((nocc, nvir), dtype=types[float])
    .zeros 39 [0, 1],
    -- 77: t1new += einsum("ijab,kija->kb", t2, x1) * -2
    .add 39 (.ein [(6, [0, 1, 2, 3]), (29, [4, 0, 1, 2])] [4, 3]) (-2) 1,
    -- 78: del x1
    .del 29,
    -- 79: x2 = np.zeros((nocc, nvir, nvir, nvir), dtype=types[float])
    .zeros 40 [0, 1, 1, 1],
    -- 80: x2 += einsum("iabc->ibac", v.ovvv) * -0.5
    .add 40 (.ein [(8, [0, 1, 2, 3])] [0, 2, 1, 3]) (-1) 2,
    -- 81: x2 += einsum("iabc->ibca", v.ovvv)
    .add 40 (.ein [(8, [0, 1, 2, 3])] [0, 2, 3, 1]) 1 1,
    -- 82: t1new += einsum("ijab,icba->jc", t2, x2) * 4
    .add 39 (.ein [(6, [0, 1, 2, 3]), (40, [0, 4, 3, 2])] [1, 4]) 4 1,
    -- 83: del x2
    .del 40,
    -- 84: x3 = np.zeros((nocc, nvir), dtype=types[float])
    .zeros 41 [0, 1],
    -- 85: x3 += einsum("w,wia->ia", s1, g.bov)
    .add 41 (.ein [(9, [0]), (2, [0, 1, 2])] [1, 2]) 1 1,
    -- 86: x6 = np.zeros((nocc, nvir), dtype=types[float])
    .zeros 42 [0, 1],
    -- 87: x6 += einsum("ia->ia", x3)
    .add 42 (.ein [(41, [0, 1])] [0, 1]) 1 1,
    -- 88: x19 = np.zeros((nocc, nvir), dtype=types[float])
    .zeros 43 [0, 1],
    -- 89: x19 += einsum("ia->ia", x3) * 0.5
    .add 43 (.ein [(41, [0, 1])] [0, 1]) 1 2,
    -- 90: x98 = np.zeros((nocc, nvir), dtype=types[float])
    .zeros 44 [0, 1],
    -- 91: x98 += einsum("ia->ia", x3)
    .add 44 (.ein [(41, [0, 1])] [0, 1]) 1 1,
    -- 92: del x3
    .del 41,
    -- 93: x4 = np.zeros((nocc, nocc, nvir, nvir), dtype=types[float])
    .zeros 45 [0, 0, 1, 1],
    -- 94: x4 += einsum("iajb->jiab", v.ovov) * 2
    .add 45 (.ein [(5, [0, 1, 2, 3])] [2, 0, 1, 3]) 2 1,
    -- 95: x4 -= einsum("iajb->jiba", v.ovov)
    .add 45 (.ein [(5, [0, 1, 2, 3])] [2, 0, 3, 1]) (-1) 1,
    -- 96: x5 = np.zeros((nocc, nvir), dtype=types[float])
    .zeros 46 [0, 1],
    -- 97: x5 += einsum("ia,ijba->jb", t1, x4)
    .add 46 (.ein [(4, [0, 1]), (45, [0, 2, 3, 1])] [2, 3]) 1 1,
    -- 98: x6 += einsum("ia->ia", x5)
    .add 42 (.ein [(46, [0, 1])] [0, 1]) 1 1,
    -- 99: del x5
    .del 46,
    -- 100: x92 = np.zeros((nbos, nocc, nvir), dtype=types[float])
    .zeros 47 [2, 0, 1],
    -- 101: x92 += einsum("wia,ijba->wjb", u11, x4)
    .add 47 (.ein [(10, [0, 1, 2]), (45, [1, 3, 4, 2])] [0, 3, 4]) 1 1,
    -- 102: del x4
    .del 45,
    -- 103: x93 = np.zeros((nbos, nocc, nvir), dtype=types[float])
    .zeros 48 [2, 0, 1],
    -- 104: x93 += einsum("wia->wia", x92)
    .add 48 (.ein [(47, [0, 1, 2])] [0, 1, 2]) 1 1,
    -- 105: del x92
    .del 47,
    -- 106: x6 += einsum("ia->ia", f.ov)
    .add 42 (.ein [(11, [0, 1])] [0, 1]) 1 1,
    -- 107: x68 = np.zeros((nocc, nocc, nocc, nvir), dtype=types[float])
    .zeros 49 [0, 0, 0, 1],
    -- 108: x68 += einsum("ia,jkab->jkib", x6, t2)
    .add 49 (.ein [(42, [0, 1]), (6, [2, 3, 1, 4])] [2, 3, 0, 4]) 1 1,
    -- 109: x69 += einsum("ijka->kjia", x68)
    .add 38 (.ein [(49, [0, 1, 2, 3])] [2, 1, 0, 3]) 1 1,
    -- 110: del x68
    .del 49,
    -- 111: x71 = np.zeros((nocc, nocc), dtype=types[float])
    .zeros 50 [0, 0],
    -- 112: x71 += einsum("ia,ja->ij", t1, x6)
    .add 50 (.ein [(4, [0, 1]), (42, [2, 1])] [0, 2]) 1 1,
    -- 113: x72 = np.zeros((nocc, nocc), dtype=types[float])
    .zeros 51 [0, 0],
    -- 114: x72 += einsum("ij->ij", x71)
    .add 51 (.ein [(50, [0, 1])] [0, 1]) 1 1,
    -- 115: del x71
    .del 50,
    -- 116: s1new = np.zeros((nbos), dtype=types[float])
    .zeros 52 [2],
    -- 117: s1new += einsum("ia,wia->w", x6, u11) * 2
    .add 52 (.ein [(42, [0, 1]), (10, [2, 0, 1])] [2]) 2 1,
    -- 118: x7 = np.zeros((nocc, nocc, nvir, nvir), dtype=types[float])
    .zeros 53 [0, 0, 1, 1],
    -- 119: x7 -= einsum("ijab->jiab", t2)
    .add 53 (.ein [(6, [0, 1, 2, 3])] [1, 0, 2, 3]) (-1) 1,
    -- 120: x7 += einsum("ijab->jiba", t2) * 2
    .add 53 (.ein [(6, [0, 1, 2, 3])] [1, 0, 3, 2]) 2 1,
    -- 121: t1new += einsum("ia,ijab->jb", x6, x7) * 2
    .add 39 (.ein [(42, [0, 1]), (53, [0, 2, 1, 3])] [2, 3]) 2 1,
    -- 122: del x6
    .del 42,
    -- 123: x8 = np.zeros((nocc, nocc, nvir, nvir), dtype=types[float])
    .zeros 54 [0, 0, 1, 1],
    -- 124: x8 += einsum("iabj->ijba", v.ovvo) * 2
    .add 54 (.ein [(12, [0, 1, 2, 3])] [0, 3, 2, 1]) 2 1,
    -- 125: x8 -= einsum("ijab->ijab", v.oovv)
    .add 54 (.ein [(13, [0, 1, 2, 3])] [0, 1, 2, 3]) (-1) 1,
    -- 126: t1new += einsum("ia,ijba->jb", t1, x8) * 2
    .add 39 (.ein [(4, [0, 1]), (54, [0, 2, 3, 1])] [2, 3]) 2 1,
    -- 127: u11new = np.zeros((nbos, nocc, nvir), dtype=types[float])
    .zeros 55 [2, 0, 1],
    -- 128: u11new += einsum("wia,ijba->wjb", u11, x8)
    .add 55 (.ein [(10, [0, 1, 2]), (54, [1, 3, 4, 2])] [0, 3, 4]) 1 1,
    -- 129: del x8
    .del 54,
    -- 130: x9 = np.zeros((nbos, nocc, nocc), dtype=types[float])
    .zeros 56 [2, 0, 0],
    -- 131: x9 += einsum("ia,wja->wji", t1, g.bov)
    .add 56 (.ein [(4, [0, 1]), (2, [2, 3, 1])] [2, 3, 0]) 1 1,
    -- 132: x10 = np.zeros((nbos, nocc, nocc), dtype=types[float])
    .zeros 57 [2, 0, 0],
    -- 133: x10 += einsum("wij->wij", x9)
    .add 57 (.ein [(56, [0, 1, 2])] [0, 1, 2]) 1 1,
    -- 134: del x9
    .del 56,
    -- 135: x10 += einsum("wij->wij", g.boo)
    .add 57 (.ein [(0, [0, 1, 2])] [0, 1, 2]) 1 1,
    -- 136: x49 = np.zeros((nbos, nocc, nvir), dtype=types[float])
    .zeros 58 [2, 0, 1],
    -- 137: x49 += einsum("ia,wij->wja", t1, x10)
    .add 58 (.ein [(4, [0, 1]), (57, [2, 0, 3])] [2, 3, 1]) 1 1,
    -- 138: x50 = np.zeros((nbos, nocc, nvir), dtype=types[float])
    .zeros 59 [2, 0, 1],
    -- 139: x50 -= einsum("wia->wia", x49)
    .add 59 (.ein [(58, [0, 1, 2])] [0, 1, 2]) (-1) 1,
    -- 140: del x49
    .del 58,
    -- 141: t1new -= einsum("wia,wij->ja", u11, x10) * 2
    .add 39 (.ein [(10, [0, 1, 2]), (57, [0, 1, 3])] [3, 2]) (-2) 1,
    -- 142: del x10
    .del 57,
    -- 143: x11 = np.zeros((nocc, nocc), dtype=types[float])
    .zeros 60 [0, 0],
    -- 144: x11 += einsum("w,wij->ij", s1, g.boo)
    .add 60 (.ein [(9, [0]), (0, [0, 1, 2])] [1, 2]) 1 1,
    -- 145: x21 = np.zeros((nocc, nocc), dtype=types[float])
    .zeros 61 [0, 0],
    -- 146: x21 += einsum("ij->ij", x11)
    .add 61 (.ein [(60, [0, 1])] [0, 1]) 1 1,
    -- 147: x72 += einsum("ij->ji", x11)
    .add 51 (.ein [(60, [0, 1])] [1, 0]) 1 1,
    -- 148: del x11
    .del 60,
    -- 149: x12 = np.zeros((nocc, nocc), dtype=types[float])
    .zeros 62 [0, 0],
    -- 150: x12 += einsum("wia,wja->ij", g.bov, u11)
    .add 62 (.ein [(2, [0, 1, 2]), (10, [0, 3, 2])] [1, 3]) 1 1,
    -- 151: x21 += einsum("ij->ij", x12)
    .add 61 (.ein [(62, [0, 1])] [0, 1]) 1 1,
    -- 152: x54 = np.zeros((nocc, nocc), dtype=types[float])
    .zeros 63 [0, 0],
    -- 153: x54 += einsum("ij->ij", x12)
    .add 63 (.ein [(62, [0, 1])] [0, 1]) 1 1,
    -- 154: del x12
    .del 62,
    -- 155: x13 = np.zeros((nocc, nocc, nvir, nvir), dtype=types[float])
    .zeros 64 [0, 0, 1, 1],
    -- 156: x13 += einsum("iajb->jiab", v.ovov) * -0.5
    .add 64 (.ein [(5, [0, 1, 2, 3])] [2, 0, 1, 3]) (-1) 2,
    -- 157: x13 += einsum("iajb->jiba", v.ovov)
    .add 64 (.ein [(5, [0, 1, 2, 3])] [2, 0, 3, 1]) 1 1,
    -- 158: x14 = np.zeros((nocc, nocc), dtype=types[float])
    .zeros 65 [0, 0],
    -- 159: x14 += einsum("ijab,ikab->jk", t2, x13) * 2
    .add 65 (.ein [(6, [0, 1, 2, 3]), (64, [0, 4, 2, 3])] [1, 4]) 2 1,
    -- 160: x21 += einsum("ij->ji", x14)
    .add 61 (.ein [(65, [0, 1])] [1, 0]) 1 1,
    -- 161: del x14
    .del 65,
    -- 162: x80 = np.zeros((nvir, nvir), dtype=types[float])
    .zeros 66 [1, 1],
    -- 163: x80 += einsum("ijab,ijac->bc", t2, x13)
    .add 66 (.ein [(6, [0, 1, 2, 3]), (64, [0, 1, 2, 4])] [3, 4]) 1 1,
    -- 164: x81 = np.zeros((nocc, nocc, nvir, nvir), dtype=types[float])
    .zeros 67 [0, 0, 1, 1],
    -- 165: x81 += einsum("ab,ijbc->ijca", x80, t2) * 2
    .add 67 (.ein [(66, [0, 1]), (6, [2, 3, 1, 4])] [2, 3, 4, 0]) 2 1,
    -- 166: del x80
    .del 66,
    -- 167: x84 = np.zeros((nocc, nocc, nvir, nvir), dtype=types[float])
    .zeros 68 [0, 0, 1, 1],
    -- 168: x84 += einsum("ijab->jiab", x81)
    .add 68 (.ein [(67, [0, 1, 2, 3])] [1, 0, 2, 3]) 1 1,
    -- 169: del x81
    .del 67,
    -- 170: x82 = np.zeros((nocc, nocc), dtype=types[float])
    .zeros 69 [0, 0],
    -- 171: x82 += einsum("ijab,ikab->jk", t2, x13)
    .add 69 (.ein [(6, [0, 1, 2, 3]), (64, [0, 4, 2, 3])] [1, 4]) 1 1,
    -- 172: del x13
    .del 64,
    -- 173: x83 = np.zeros((nocc, nocc, nvir, nvir), dtype=types[float])
    .zeros 70 [0, 0, 1, 1],
    -- 174: x83 += einsum("ij,jkab->kiab", x82, t2) * 2
    .add 70 (.ein [(69, [0, 1]), (6, [1, 2, 3, 4])] [2, 0, 3, 4]) 2 1,
    -- 175: del x82
    .del 69,
    -- 176: x84 += einsum("ijab->ijba", x83)
    .add 68 (.ein [(70, [0, 1, 2, 3])] [0, 1, 3, 2]) 1 1,
    -- 177: del x83
    .del 70,
    -- 178: x15 = np.zeros((nocc, nocc, nocc, nvir), dtype=types[float])
    .zeros 71 [0, 0, 0, 1],
    -- 179: x15 += einsum("ijka->ikja", v.ooov)
    .add 71 (.ein [(7, [0, 1, 2, 3])] [0, 2, 1, 3]) 1 1,
    -- 180: x15 += einsum("ijka->kija", v.ooov) * -0.5
    .add 71 (.ein [(7, [0, 1, 2, 3])] [2, 0, 1, 3]) (-1) 2,
    -- 181: x16 = np.zeros((nocc, nocc), dtype=types[float])
    .zeros 72 [0, 0],
    -- 182: x16 += einsum("ia,jika->jk", t1, x15) * 2
    .add 72 (.ein [(4, [0, 1]), (71, [2, 0, 3, 1])] [2, 3]) 2 1,
    -- 183: del x15
    .del 71,
    -- 184: x21 += einsum("ij->ij", x16)
    .add 61 (.ein [(72, [0, 1])] [0, 1]) 1 1,
    -- 185: del x16
    .del 72,
    -- 186: x17 = np.zeros((nocc, nocc, nvir, nvir), dtype=types[float])
    .zeros 73 [0, 0, 1, 1],
    -- 187: x17 += einsum("iajb->jiab", v.ovov)
    .add 73 (.ein [(5, [0, 1, 2, 3])] [2, 0, 1, 3]) 1 1,
    -- 188: x17 += einsum("iajb->jiba", v.ovov) * -0.5
    .add 73 (.ein [(5, [0, 1, 2, 3])] [2, 0, 3, 1]) (-1) 2,
    -- 189: x18 = np.zeros((nocc, nvir), dtype=types[float])
    .zeros 74 [0, 1],
    -- 190: x18 += einsum("ia,ijba->jb", t1, x17)
    .add 74 (.ein [(4, [0, 1]), (73, [0, 2, 3, 1])] [2, 3]) 1 1,
    -- 191: x19 += einsum("ia->ia", x18)
    .add 43 (.ein [(74, [0, 1])] [0, 1]) 1 1,
    -- 192: del x18
    .del 74,
    -- 193: x96 = np.zeros((nocc, nvir), dtype=types[float])
    .zeros 75 [0, 1],
    -- 194: x96 += einsum("ia,ijba->jb", t1, x17) * 2
    .add 75 (.ein [(4, [0, 1]), (73, [0, 2, 3, 1])] [2, 3]) 2 1,
    -- 195: del x17
    .del 73,
    -- 196: x97 = np.zeros((nvir, nvir), dtype=types[float])
    .zeros 76 [1, 1],
    -- 197: x97 += einsum("ia,ib->ab", t1, x96) * -1
    .add 76 (.ein [(4, [0, 1]), (75, [0, 2])] [1, 2]) (-1) 1,
    -- 198: del x96
    .del 75,
    -- 199: x19 += einsum("ia->ia", f.ov) * 0.5
    .add 43 (.ein [(11, [0, 1])] [0, 1]) 1 2,
    -- 200: x20 = np.zeros((nocc, nocc), dtype=types[float])
    .zeros 77 [0, 0],
    -- 201: x20 += einsum("ia,ja->ij", t1, x19) * 2
    .add 77 (.ein [(4, [0, 1]), (43, [2, 1])] [0, 2]) 2 1,
    -- 202: del x19
    .del 43,
    -- 203: x21 += einsum("ij->ji", x20)
    .add 61 (.ein [(77, [0, 1])] [1, 0]) 1 1,
    -- 204: del x20
    .del 77,
    -- 205: x21 += einsum("ij->ij", f.oo)
    .add 61 (.ein [(14, [0, 1])] [0, 1]) 1 1,
    -- 206: t1new += einsum("ia,ij->ja", t1, x21) * -2
    .add 39 (.ein [(4, [0, 1]), (61, [0, 2])] [2, 1]) (-2) 1,
    -- 207: u11new += einsum("ij,wia->wja", x21, u11) * -1
    .add 55 (.ein [(61, [0, 1]), (10, [2, 0, 3])] [2, 1, 3]) (-1) 1,
    -- 208: del x21
    .del 61,
    -- 209: x22 = np.zeros((nvir, nvir), dtype=types[float])
    .zeros 78 [1, 1],
    -- 210: x22 += einsum("w,wab->ab", s1, g.bvv)
    .add 78 (.ein [(9, [0]), (3, [0, 1, 2])] [1, 2]) 1 1,
    -- 211: x25 = np.zeros((nvir, nvir), dtype=types[float])
    .zeros 79 [1, 1],
    -- 212: x25 += einsum("ab->ab", x22)
    .add 79 (.ein [(78, [0, 1])] [0, 1]) 1 1,
    -- 213: x74 = np.zeros((nvir, nvir), dtype=types[float])
    .zeros 80 [1, 1],
    -- 214: x74 += einsum("ab->ab", x22)
    .add 80 (.ein [(78, [0, 1])] [0, 1]) 1 1,
    -- 215: x97 += einsum("ab->ab", x22)
    .add 76 (.ein [(78, [0, 1])] [0, 1]) 1 1,
    -- 216: del x22
    .del 78,
    -- 217: x23 = np.zeros((nocc, nvir, nvir, nvir), dtype=types[float])
    .zeros 81 [0, 1, 1, 1],
    -- 218: x23 -= einsum("iabc->ibac", v.ovvv)
    .add 81 (.ein [(8, [0, 1, 2, 3])] [0, 2, 1, 3]) (-1) 1,
    -- 219: x23 += einsum("iabc->ibca", v.ovvv) * 2
    .add 81 (.ein [(8, [0, 1, 2, 3])] [0, 2, 3, 1]) 2 1,
    -- 220: x24 = np.zeros((nvir, nvir), dtype=types[float])
    .zeros 82 [1, 1],
    -- 221: x24 += einsum("ia,ibca->bc", t1, x23)
    .add 82 (.ein [(4, [0, 1]), (81, [0, 2, 3, 1])] [2, 3]) 1 1,
    -- 222: x25 += einsum("ab->ab", x24)
    .add 79 (.ein [(82, [0, 1])] [0, 1]) 1 1,
    -- 223: x44 = np.zeros((nvir, nvir), dtype=types[float])
    .zeros 83 [1, 1],
    -- 224: x44 -= einsum("ab->ab", x24)
    .add 83 (.ein [(82, [0, 1])] [0, 1]) (-1) 1,
    -- 225: del x24
    .del 82,
    -- 226: x59 = np.zeros((nocc, nocc, nvir, nvir), dtype=types[float])
    .zeros 84 [0, 0, 1, 1],
    -- 227: x59 += einsum("ia,jbac->ijbc", t1, x23)
    .add 84 (.ein [(4, [0, 1]), (81, [2, 3, 1, 4])] [0, 2, 3, 4]) 1 1,
    -- 228: x60 = np.zeros((nocc, nocc, nvir, nvir), dtype=types[float])
    .zeros 85 [0, 0, 1, 1],
    -- 229: x60 += einsum("ijab,kica->jkbc", t2, x59)
    .add 85 (.ein [(6, [0, 1, 2, 3]), (84, [4, 0, 5, 2])] [1, 4, 3, 5]) 1 1,
    -- 230: del x59
    .del 84,
    -- 231: x76 = np.zeros((nocc, nocc, nvir, nvir), dtype=types[float])
    .zeros 86 [0, 0, 1, 1],
    -- 232: x76 -= einsum("ijab->jiab", x60)
    .add 86 (.ein [(85, [0, 1, 2, 3])] [1, 0, 2, 3]) (-1) 1,
    -- 233: del x60
    .del 85,
    -- 234: x100 = np.zeros((nbos, nvir, nvir), dtype=types[float])
    .zeros 87 [2, 1, 1],
    -- 235: x100 += einsum("wia,ibca->wbc", u11, x23)
    .add 87 (.ein [(10, [0, 1, 2]), (81, [1, 3, 4, 2])] [0, 3, 4]) 1 1,
    -- 236: del x23
    .del 81,
    -- 237: x25 += einsum("ab->ab", f.vv)
    .add 79 (.ein [(15, [0, 1])] [0, 1]) 1 1,
    -- 238: t1new += einsum("ia,ba->ib", t1, x25) * 2
    .add 39 (.ein [(4, [0, 1]), (79, [2, 1])] [0, 2]) 2 1,
    -- 239: del x25
    .del 79,
    -- 240: x26 = np.zeros((nbos), dtype=types[float])
    .zeros 88 [2],
    -- 241: x26 += einsum("w->w", G)
    .add 88 (.ein [(16, [0])] [0]) 1 1,
    -- 242: x26 += einsum("ia,wia->w", t1, g.bov) * 2
    .add 88 (.ein [(4, [0, 1]), (2, [2, 0, 1])] [2]) 2 1,
    -- 243: t1new += einsum("w,wia->ia", x26, u11) * 2
    .add 39 (.ein [(88, [0]), (10, [0, 1, 2])] [1, 2]) 2 1,
    -- 244: del x26
    .del 88,
    -- 245: x28 = np.zeros((nocc, nvir, nvir, nvir), dtype=types[float])
    .zeros 89 [0, 1, 1, 1],
    -- 246: x28 += einsum("ia,bacd->icbd", t1, v.vvvv)
    .add 89 (.ein [(4, [0, 1]), (17, [2, 1, 3, 4])] [0, 3, 2, 4]) 1 1,
    -- 247: t2new += einsum("ia,jbca->ijbc", t1, x28)
    .add 32 (.ein [(4, [0, 1]), (89, [2, 3, 4, 1])] [0, 2, 3, 4]) 1 1,
    -- 248: del x28
    .del 89,
    -- 249: x29 = np.zeros((nocc, nocc, nvir, nvir), dtype=types[float])
    .zeros 90 [0, 0, 1, 1],
    -- 250: x29 += einsum("ia,jabc->ijbc", t1, v.ovvv)
    .add 90 (.ein [(4, [0, 1]), (8, [2, 1, 3, 4])] [0, 2, 3, 4]) 1 1,
    -- 251: x30 = np.zeros((nocc, nocc, nvir, nvir), dtype=types[float])
    .zeros 91 [0, 0, 1, 1],
    -- 252: x30 += einsum("ijab,kjca->kibc", t2, x29)
    .add 91 (.ein [(6, [0, 1, 2, 3]), (90, [4, 1, 5, 2])] [4, 0, 3, 5]) 1 1,
    -- 253: del x29
    .del 90,
    -- 254: x56 = np.zeros((nocc, nocc, nvir, nvir), dtype=types[float])
    .zeros 92 [0, 0, 1, 1],
    -- 255: x56 += einsum("ijab->ijab", x30)
    .add 92 (.ein [(91, [0, 1, 2, 3])] [0, 1, 2, 3]) 1 1,
    -- 256: del x30
    .del 91,
    -- 257: x31 = np.zeros((nocc, nocc, nvir, nvir), dtype=types[float])
    .zeros 93 [0, 0, 1, 1],
    -- 258: x31 -= einsum("iajb->jiab", v.ovov)
    .add 93 (.ein [(5, [0, 1, 2, 3])] [2, 0, 1, 3]) (-1) 1,
    -- 259: x31 += einsum("iajb->jiba", v.ovov) * 2
    .add 93 (.ein [(5, [0, 1, 2, 3])] [2, 0, 3, 1]) 2 1,
    -- 260: x32 = np.zeros((nocc, nocc, nvir, nvir), dtype=types[float])
    .zeros 94 [0, 0, 1, 1],
    -- 261: x32 += einsum("ijab,ikbc->jkac", t2, x31)
    .add 94 (.ein [(6, [0, 1, 2, 3]), (93, [0, 4, 3, 5])] [1, 4, 2, 5]) 1 1,
    -- 262: x33 = np.zeros((nocc, nocc, nvir, nvir), dtype=types[float])
    .zeros 95 [0, 0, 1, 1],
    -- 263: x33 += einsum("ijab,kica->jkbc", t2, x32)
    .add 95 (.ein [(6, [0, 1, 2, 3]), (94, [4, 0, 5, 2])] [1, 4, 3, 5]) 1 1,
    -- 264: del x32
    .del 94,
    -- 265: x56 += einsum("ijab->ijab", x33)
    .add 92 (.ein [(95, [0, 1, 2, 3])] [0, 1, 2, 3]) 1 1,
    -- 266: del x33
    .del 95,
    -- 267: x85 = np.zeros((nocc, nocc, nvir, nvir), dtype=types[float])
    .zeros 96 [0, 0, 1, 1],
    -- 268: x85 += einsum("ijab,ikac->jkbc", t2, x31) * 2
    .add 96 (.ein [(6, [0, 1, 2, 3]), (93, [0, 4, 2, 5])] [1, 4, 3, 5]) 2 1,
    -- 269: del x31
    .del 93,
    -- 270: x34 = np.zeros((nocc, nocc, nocc, nvir), dtype=types[float])
    .zeros 97 [0, 0, 0, 1],
    -- 271: x34 += einsum("ijab,jkla->ilkb", t2, v.ooov)
    .add 97 (.ein [(6, [0, 1, 2, 3]), (7, [1, 4, 5, 2])] [0, 5, 4, 3]) 1 1,
    -- 272: x41 -= einsum("ijka->ijka", x34)
    .add 34 (.ein [(97, [0, 1, 2, 3])] [0, 1, 2, 3]) (-1) 1,
    -- 273: del x34
    .del 97,
    -- 274: x38 = np.zeros((nocc, nocc, nvir, nvir), dtype=types[float])
    .zeros 98 [0, 0, 1, 1],
    -- 275: x38 += einsum("ia,jbca->ijcb", t1, v.ovvv)
    .add 98 (.ein [(4, [0, 1]), (8, [2, 3, 4, 1])] [0, 2, 4, 3]) 1 1,
    -- 276: x39 = np.zeros((nocc, nocc, nvir, nvir), dtype=types[float])
    .zeros 99 [0, 0, 1, 1],
    -- 277: x39 += einsum("ijab->jiab", x38)
    .add 99 (.ein [(98, [0, 1, 2, 3])] [1, 0, 2, 3]) 1 1,
    -- 278: x58 = np.zeros((nocc, nocc, nvir, nvir), dtype=types[float])
    .zeros 100 [0, 0, 1, 1],
    -- 279: x58 += einsum("ijab,kjca->kibc", t2, x38)
    .add 100 (.ein [(6, [0, 1, 2, 3]), (98, [4, 1, 5, 2])] [4, 0, 3, 5]) 1 1,
    -- 280: del x38
    .del 98,
    -- 281: x76 += einsum("ijab->ijab", x58)
    .add 86 (.ein [(100, [0, 1, 2, 3])] [0, 1, 2, 3]) 1 1,
    -- 282: del x58
    .del 100,
    -- 283: x39 += einsum("iabj->ijba", v.ovvo)
    .add 99 (.ein [(12, [0, 1, 2, 3])] [0, 3, 2, 1]) 1 1,
    -- 284: x40 = np.zeros((nocc, nocc, nocc, nvir), dtype=types[float])
    .zeros 101 [0, 0, 0, 1],
    -- 285: x40 += einsum("ia,jkba->ijkb", t1, x39)
    .add 101 (.ein [(4, [0, 1]), (99, [2, 3, 4, 1])] [0, 2, 3, 4]) 1 1,
    -- 286: del x39
    .del 99,
    -- 287: x41 += einsum("ijka->ijka", x40)
    .add 34 (.ein [(101, [0, 1, 2, 3])] [0, 1, 2, 3]) 1 1,
    -- 288: del x40
    .del 101,
    -- 289: x42 = np.zeros((nocc, nocc, nvir, nvir), dtype=types[float])
    .zeros 102 [0, 0, 1, 1],
    -- 290: x42 += einsum("ia,jikb->jkab", t1, x41)
    .add 102 (.ein [(4, [0, 1]), (34, [2, 0, 3, 4])] [2, 3, 1, 4]) 1 1,
    -- 291: del x41
    .del 34,
    -- 292: x56 += einsum("ijab->ijab", x42)
    .add 92 (.ein [(102, [0, 1, 2, 3])] [0, 1, 2, 3]) 1 1,
    -- 293: del x42
    .del 102,
    -- 294: x43 = np.zeros((nvir, nvir), dtype=types[float])
    .zeros 103 [1, 1],
    -- 295: x43 += einsum("wia,wib->ab", g.bov, u11)
    .add 103 (.ein [(2, [0, 1, 2]), (10, [0, 1, 3])] [2, 3]) 1 1,
    -- 296: x44 += einsum("ab->ba", x43)
    .add 83 (.ein [(103, [0, 1])] [1, 0]) 1 1,
    -- 297: x45 = np.zeros((nocc, nocc, nvir, nvir), dtype=types[float])
    .zeros 104 [0, 0, 1, 1],
    -- 298: x45 += einsum("ab,ijbc->ijca", x44, t2)
    .add 104 (.ein [(83, [0, 1]), (6, [2, 3, 1, 4])] [2, 3, 4, 0]) 1 1,
    -- 299: del x44
    .del 83,
    -- 300: x56 += einsum("ijab->jiab", x45)
    .add 92 (.ein [(104, [0, 1, 2, 3])] [1, 0, 2, 3]) 1 1,
    -- 301: del x45
    .del 104,
    -- 302: x97 += einsum("ab->ba", x43) * -1
    .add 76 (.ein [(103, [0, 1])] [1, 0]) (-1) 1,
    -- 303: del x43
    .del 103,
    -- 304: x46 = np.zeros((nbos, nocc, nvir), dtype=types[float])
    .zeros 105 [2, 0, 1],
    -- 305: x46 += einsum("ia,wba->wib", t1, g.bvv)
    .add 105 (.ein [(4, [0, 1]), (3, [2, 3, 1])] [2, 0, 3]) 1 1,
    -- 306: x50 += einsum("wia->wia", x46)
    .add 59 (.ein [(105, [0, 1, 2])] [0, 1, 2]) 1 1,
    -- 307: del x46
    .del 105,
    -- 308: x47 = np.zeros((nocc, nocc, nvir, nvir), dtype=types[float])
    .zeros 106 [0, 0, 1, 1],
    -- 309: x47 += einsum("ijab->jiab", t2) * 2
    .add 106 (.ein [(6, [0, 1, 2, 3])] [1, 0, 2, 3]) 2 1,
    -- 310: x47 -= einsum("ijab->jiba", t2)
    .add 106 (.ein [(6, [0, 1, 2, 3])] [1, 0, 3, 2]) (-1) 1,
    -- 311: x48 = np.zeros((nbos, nocc, nvir), dtype=types[float])
    .zeros 107 [2, 0, 1],
    -- 312: x48 += einsum("wia,ijba->wjb", g.bov, x47)
    .add 107 (.ein [(2, [0, 1, 2]), (106, [1, 3, 4, 2])] [0, 3, 4]) 1 1,
    -- 313: del x47
    .del 106,
    -- 314: x50 += einsum("wia->wia", x48)
    .add 59 (.ein [(107, [0, 1, 2])] [0, 1, 2]) 1 1,
    -- 315: del x48
    .del 107,
    -- 316: x50 += einsum("wai->wia", g.bvo)
    .add 59 (.ein [(1, [0, 1, 2])] [0, 2, 1]) 1 1,
    -- 317: x51 = np.zeros((nocc, nocc, nvir, nvir), dtype=types[float])
    .zeros 108 [0, 0, 1, 1],
    -- 318: x51 += einsum("wia,wjb->ijab", u11, x50)
    .add 108 (.ein [(10, [0, 1, 2]), (59, [0, 3, 4])] [1, 3, 2, 4]) 1 1,
    -- 319: del x50
    .del 59,
    -- 320: x56 -= einsum("ijab->jiba", x51)
    .add 92 (.ein [(108, [0, 1, 2, 3])] [1, 0, 3, 2]) (-1) 1,
    -- 321: del x51
    .del 108,
    -- 322: x52 = np.zeros((nocc, nocc, nocc, nvir), dtype=types[float])
    .zeros 109 [0, 0, 0, 1],
    -- 323: x52 += einsum("ijka->ikja", v.ooov) * 2
    .add 109 (.ein [(7, [0, 1, 2, 3])] [0, 2, 1, 3]) 2 1,
    -- 324: x52 -= einsum("ijka->kija", v.ooov)
    .add 109 (.ein [(7, [0, 1, 2, 3])] [2, 0, 1, 3]) (-1) 1,
    -- 325: x53 = np.zeros((nocc, nocc), dtype=types[float])
    .zeros 110 [0, 0],
    -- 326: x53 += einsum("ia,jika->jk", t1, x52)
    .add 110 (.ein [(4, [0, 1]), (109, [2, 0, 3, 1])] [2, 3]) 1 1,
    -- 327: x54 += einsum("ij->ij", x53)
    .add 63 (.ein [(110, [0, 1])] [0, 1]) 1 1,
    -- 328: del x53
    .del 110,
    -- 329: x55 = np.zeros((nocc, nocc, nvir, nvir), dtype=types[float])
    .zeros 111 [0, 0, 1, 1],
    -- 330: x55 += einsum("ij,ikab->kjab", x54, t2)
    .add 111 (.ein [(63, [0, 1]), (6, [0, 2, 3, 4])] [2, 1, 3, 4]) 1 1,
    -- 331: del x54
    .del 63,
    -- 332: x56 += einsum("ijab->ijba", x55)
    .add 92 (.ein [(111, [0, 1, 2, 3])] [0, 1, 3, 2]) 1 1,
    -- 333: del x55
    .del 111,
    -- 334: t2new -= einsum("ijab->ijab", x56)
    .add 32 (.ein [(92, [0, 1, 2, 3])] [0, 1, 2, 3]) (-1) 1,
    -- 335: t2new -= einsum("ijab->jiba", x56)
    .add 32 (.ein [(92, [0, 1, 2, 3])] [1, 0, 3, 2]) (-1) 1,
    -- 336: del x56
    .del 92,
    -- 337: x99 = np.zeros((nbos, nocc, nocc), dtype=types[float])
    .zeros 112 [2, 0, 0],
    -- 338: x99 += einsum("wia,jika->wjk", u11, x52)
    .add 112 (.ein [(10, [0, 1, 2]), (109, [3, 1, 4, 2])] [0, 3, 4]) 1 1,
    -- 339: del x52
    .del 109,
    -- 340: x57 = np.zeros((nocc, nocc, nvir, nvir), dtype=types[float])
    .zeros 113 [0, 0, 1, 1],
    -- 341: x57 += einsum("ia,bjca->ijbc", t1, v.vovv)
    .add 113 (.ein [(4, [0, 1]), (18, [2, 3, 4, 1])] [0, 3, 2, 4]) 1 1,
    -- 342: x76 -= einsum("ijab->ijab", x57)
    .add 86 (.ein [(113, [0, 1, 2, 3])] [0, 1, 2, 3]) (-1) 1,
    -- 343: del x57
    .del 113,
    -- 344: x61 = np.zeros((nocc, nocc, nocc, nvir), dtype=types[float])
    .zeros 114 [0, 0, 0, 1],
    -- 345: x61 += einsum("ia,jkba->ijkb", t1, v.oovv)
    .add 114 (.ein [(4, [0, 1]), (13, [2, 3, 4, 1])] [0, 2, 3, 4]) 1 1,
    -- 346: x69 += einsum("ijka->jika", x61)
    .add 38 (.ein [(114, [0, 1, 2, 3])] [1, 0, 2, 3]) 1 1,
    -- 347: del x61
    .del 114,
    -- 348: x62 = np.zeros((nocc, nocc, nocc, nvir), dtype=types[float])
    .zeros 115 [0, 0, 0, 1],
    -- 349: x62 += einsum("ijab,klja->iklb", t2, v.ooov)
    .add 115 (.ein [(6, [0, 1, 2, 3]), (7, [4, 5, 1, 2])] [0, 4, 5, 3]) 1 1,
    -- 350: x69 -= einsum("ijka->jika", x62)
    .add 38 (.ein [(115, [0, 1, 2, 3])] [1, 0, 2, 3]) (-1) 1,
    -- 351: del x62
    .del 115,
    -- 352: x63 = np.zeros((nocc, nocc, nocc, nocc), dtype=types[float])
    .zeros 116 [0, 0, 0, 0],
    -- 353: x63 += einsum("ia,jkla->ijlk", t1, v.ooov)
    .add 116 (.ein [(4, [0, 1]), (7, [2, 3, 4, 1])] [0, 2, 4, 3]) 1 1,
    -- 354: x64 = np.zeros((nocc, nocc, nocc, nvir), dtype=types[float])
    .zeros 117 [0, 0, 0, 1],
    -- 355: x64 += einsum("ia,jkil->jkla", t1, x63)
    .add 117 (.ein [(4, [0, 1]), (116, [2, 3, 0, 4])] [2, 3, 4, 1]) 1 1,
    -- 356: x69 -= einsum("ijka->jika", x64)
    .add 38 (.ein [(117, [0, 1, 2, 3])] [1, 0, 2, 3]) (-1) 1,
    -- 357: del x64
    .del 117,
    -- 358: x77 = np.zeros((nocc, nocc, nvir, nvir), dtype=types[float])
    .zeros 118 [0, 0, 1, 1],
    -- 359: x77 += einsum("ijab,kijl->klab", t2, x63)
    .add 118 (.ein [(6, [0, 1, 2, 3]), (116, [4, 0, 1, 5])] [4, 5, 2, 3]) 1 1,
    -- 360: del x63
    .del 116,
    -- 361: t2new += einsum("ijab->ijba", x77)
    .add 32 (.ein [(118, [0, 1, 2, 3])] [0, 1, 3, 2]) 1 1,
    -- 362: t2new += einsum("ijab->jiab", x77)
    .add 32 (.ein [(118, [0, 1, 2, 3])] [1, 0, 2, 3]) 1 1,
    -- 363: del x77
    .del 118,
    -- 364: x66 = np.zeros((nocc, nocc, nocc, nvir), dtype=types[float])
    .zeros 119 [0, 0, 0, 1],
    -- 365: x66 -= einsum("ijka->ikja", v.ooov)
    .add 119 (.ein [(7, [0, 1, 2, 3])] [0, 2, 1, 3]) (-1) 1,
    -- 366: x66 += einsum("ijka->kija", v.ooov) * 2
    .add 119 (.ein [(7, [0, 1, 2, 3])] [2, 0, 1, 3]) 2 1,
    -- 367: x67 = np.zeros((nocc, nocc, nocc, nvir), dtype=types[float])
    .zeros 120 [0, 0, 0, 1],
    -- 368: x67 += einsum("ijab,ikla->jklb", t2, x66)
    .add 120 (.ein [(6, [0, 1, 2, 3]), (119, [0, 4, 5, 2])] [1, 4, 5, 3]) 1 1,
    -- 369: del x66
    .del 119,
    -- 370: x69 += einsum("ijka->jika", x67)
    .add 38 (.ein [(120, [0, 1, 2, 3])] [1, 0, 2, 3]) 1 1,
    -- 371: del x67
    .del 120,
    -- 372: x70 = np.zeros((nocc, nocc, nvir, nvir), dtype=types[float])
    .zeros 121 [0, 0, 1, 1],
    -- 373: x70 += einsum("ia,ijkb->jkab", t1, x69)
    .add 121 (.ein [(4, [0, 1]), (38, [0, 2, 3, 4])] [2, 3, 1, 4]) 1 1,
    -- 374: del x69
    .del 38,
    -- 375: x76 += einsum("ijab->ijab", x70)
    .add 86 (.ein [(121, [0, 1, 2, 3])] [0, 1, 2, 3]) 1 1,
    -- 376: del x70
    .del 121,
    -- 377: x72 += einsum("ij->ji", f.oo)
    .add 51 (.ein [(14, [0, 1])] [1, 0]) 1 1,
    -- 378: x73 = np.zeros((nocc, nocc, nvir, nvir), dtype=types[float])
    .zeros 122 [0, 0, 1, 1],
    -- 379: x73 += einsum("ij,jkab->kiab", x72, t2)
    .add 122 (.ein [(51, [0, 1]), (6, [1, 2, 3, 4])] [2, 0, 3, 4]) 1 1,
    -- 380: del x72
    .del 51,
    -- 381: x76 += einsum("ijab->jiba", x73)
    .add 86 (.ein [(122, [0, 1, 2, 3])] [1, 0, 3, 2]) 1 1,
    -- 382: del x73
    .del 122,
    -- 383: x74 += einsum("ab->ab", f.vv)
    .add 80 (.ein [(15, [0, 1])] [0, 1]) 1 1,
    -- 384: x75 = np.zeros((nocc, nocc, nvir, nvir), dtype=types[float])
    .zeros 123 [0, 0, 1, 1],
    -- 385: x75 += einsum("ab,ijbc->ijca", x74, t2)
    .add 123 (.ein [(80, [0, 1]), (6, [2, 3, 1, 4])] [2, 3, 4, 0]) 1 1,
    -- 386: del x74
    .del 80,
    -- 387: x76 -= einsum("ijab->jiba", x75)
    .add 86 (.ein [(123, [0, 1, 2, 3])] [1, 0, 3, 2]) (-1) 1,
    -- 388: del x75
    .del 123,
    -- 389: t2new -= einsum("ijab->ijba", x76)
    .add 32 (.ein [(86, [0, 1, 2, 3])] [0, 1, 3, 2]) (-1) 1,
    -- 390: t2new -= einsum("ijab->jiab", x76)
    .add 32 (.ein [(86, [0, 1, 2, 3])] [1, 0, 2, 3]) (-1) 1,
    -- 391: del x76
    .del 86,
    -- 392: x78 = np.zeros((nocc, nocc, nocc, nvir), dtype=types[float])
    .zeros 124 [0, 0, 0, 1],
    -- 393: x78 += einsum("ijab,kacb->ijkc", t2, v.ovvv)
    .add 124 (.ein [(6, [0, 1, 2, 3]), (8, [4, 2, 5, 3])] [0, 1, 4, 5]) 1 1,
    -- 394: x79 = np.zeros((nocc, nocc, nvir, nvir), dtype=types[float])
    .zeros 125 [0, 0, 1, 1],
    -- 395: x79 += einsum("ia,jkib->jkab", t1, x78)
    .add 125 (.ein [(4, [0, 1]), (124, [2, 3, 0, 4])] [2, 3, 1, 4]) 1 1,
    -- 396: del x78
    .del 124,
    -- 397: x84 += einsum("ijab->ijab", x79)
    .add 68 (.ein [(125, [0, 1, 2, 3])] [0, 1, 2, 3]) 1 1,
    -- 398: del x79
    .del 125,
    -- 399: t2new += einsum("ijab->ijab", x84) * -1
    .add 32 (.ein [(68, [0, 1, 2, 3])] [0, 1, 2, 3]) (-1) 1,
    -- 400: t2new += einsum("ijab->jiba", x84) * -1
    .add 32 (.ein [(68, [0, 1, 2, 3])] [1, 0, 3, 2]) (-1) 1,
    -- 401: del x84
    .del 68,
    -- 402: x85 += einsum("iabj->jiba", v.ovvo) * 2
    .add 96 (.ein [(12, [0, 1, 2, 3])] [3, 0, 2, 1]) 2 1,
    -- 403: x85 -= einsum("ijab->jiab", v.oovv)
    .add 96 (.ein [(13, [0, 1, 2, 3])] [1, 0, 2, 3]) (-1) 1,
    -- 404: t2new += einsum("ijab,kica->kjcb", t2, x85)
    .add 32 (.ein [(6, [0, 1, 2, 3]), (96, [4, 0, 5, 2])] [4, 1, 5, 3]) 1 1,
    -- 405: del x85
    .del 96,
    -- 406: x86 = np.zeros((nocc, nocc, nocc, nocc), dtype=types[float])
    .zeros 126 [0, 0, 0, 0],
    -- 407: x86 += einsum("ijab,kalb->ijkl", t2, v.ovov)
    .add 126 (.ein [(6, [0, 1, 2, 3]), (5, [4, 2, 5, 3])] [0, 1, 4, 5]) 1 1,
    -- 408: x87 = np.zeros((nocc, nocc, nocc, nocc), dtype=types[float])
    .zeros 127 [0, 0, 0, 0],
    -- 409: x87 += einsum("ijkl->lkji", x86)
    .add 127 (.ein [(126, [0, 1, 2, 3])] [3, 2, 1, 0]) 1 1,
    -- 410: x88 += einsum("ijkl->lkji", x86)
    .add 31 (.ein [(126, [0, 1, 2, 3])] [3, 2, 1, 0]) 1 1,
    -- 411: del x86
    .del 126,
    -- 412: x87 += einsum("ijkl->kilj", v.oooo)
    .add 127 (.ein [(19, [0, 1, 2, 3])] [2, 0, 3, 1]) 1 1,
    -- 413: t2new += einsum("ijab,ijkl->lkba", t2, x87)
    .add 32 (.ein [(6, [0, 1, 2, 3]), (127, [0, 1, 4, 5])] [5, 4, 3, 2]) 1 1,
    -- 414: del x87
    .del 127,
    -- 415: x88 += einsum("ijkl->kilj", v.oooo)
    .add 31 (.ein [(19, [0, 1, 2, 3])] [2, 0, 3, 1]) 1 1,
    -- 416: x89 = np.zeros((nocc, nocc, nocc, nvir), dtype=types[float])
    .zeros 128 [0, 0, 0, 1],
    -- 417: x89 += einsum("ia,ijkl->lkja", t1, x88) * 0.9999999999999993
    .add 128 (.ein [(4, [0, 1]), (31, [0, 2, 3, 4])] [4, 3, 2, 1]) 1 1,
    -- 418: del x88
    .del 31,
    -- 419: x89 += einsum("ijak->jkia", v.oovo) * -0.9999999999999993
    .add 128 (.ein [(20, [0, 1, 2, 3])] [1, 3, 0, 2]) (-1) 1,
    -- 420: t2new += einsum("ia,jkib->jkab", t1, x89)
    .add 32 (.ein [(4, [0, 1]), (128, [2, 3, 0, 4])] [2, 3, 1, 4]) 1 1,
    -- 421: del x89
    .del 128,
    -- 422: x90 = np.zeros((nocc, nocc, nvir, nvir), dtype=types[float])
    .zeros 129 [0, 0, 1, 1],
    -- 423: x90 -= einsum("iabj->jiba", v.ovvo)
    .add 129 (.ein [(12, [0, 1, 2, 3])] [3, 0, 2, 1]) (-1) 1,
    -- 424: x90 += einsum("ijab,jakc->ikbc", t2, v.ovov)
    .add 129 (.ein [(6, [0, 1, 2, 3]), (5, [1, 2, 4, 5])] [0, 4, 3, 5]) 1 1,
    -- 425: t2new += einsum("ijab,kicb->jkac", t2, x90)
    .add 32 (.ein [(6, [0, 1, 2, 3]), (129, [4, 0, 5, 3])] [1, 4, 2, 5]) 1 1,
    -- 426: del x90
    .del 129,
    -- 427: x91 = np.zeros((nocc, nocc, nvir, nvir), dtype=types[float])
    .zeros 130 [0, 0, 1, 1],
    -- 428: x91 -= einsum("ijab->jiab", v.oovv)
    .add 130 (.ein [(13, [0, 1, 2, 3])] [1, 0, 2, 3]) (-1) 1,
    -- 429: x91 += einsum("ijab,jcka->ikbc", t2, v.ovov)
    .add 130 (.ein [(6, [0, 1, 2, 3]), (5, [1, 4, 5, 2])] [0, 5, 3, 4]) 1 1,
    -- 430: t2new += einsum("ijab,kicb->jkca", t2, x91)
    .add 32 (.ein [(6, [0, 1, 2, 3]), (130, [4, 0, 5, 3])] [1, 4, 5, 2]) 1 1,
    -- 431: del x91
    .del 130,
    -- 432: x93 += einsum("wia->wia", gc.bov)
    .add 48 (.ein [(25, [0, 1, 2])] [0, 1, 2]) 1 1,
    -- 433: x99 += einsum("ia,wja->wji", t1, x93)
    .add 112 (.ein [(4, [0, 1]), (48, [2, 3, 1])] [2, 3, 0]) 1 1,
    -- 434: u11new += einsum("wia,ijab->wjb", x93, x7)
    .add 55 (.ein [(48, [0, 1, 2]), (53, [1, 3, 2, 4])] [0, 3, 4]) 1 1,
    -- 435: del x93
    .del 48,
    -- 436: del x7
    .del 53,
    -- 437: x94 = np.zeros((nocc, nocc, nvir, nvir), dtype=types[float])
    .zeros 131 [0, 0, 1, 1],
    -- 438: x94 += einsum("iajb->jiab", v.ovov) * -1
    .add 131 (.ein [(5, [0, 1, 2, 3])] [2, 0, 1, 3]) (-1) 1,
    -- 439: x94 += einsum("iajb->jiba", v.ovov) * 2
    .add 131 (.ein [(5, [0, 1, 2, 3])] [2, 0, 3, 1]) 2 1,
    -- 440: x97 += einsum("ijab,ijac->bc", t2, x94) * -1
    .add 76 (.ein [(6, [0, 1, 2, 3]), (131, [0, 1, 2, 4])] [3, 4]) (-1) 1,
    -- 441: del x94
    .del 131,
    -- 442: x95 = np.zeros((nocc, nvir, nvir, nvir), dtype=types[float])
    .zeros 132 [0, 1, 1, 1],
    -- 443: x95 += einsum("iabc->ibac", v.ovvv)
    .add 132 (.ein [(8, [0, 1, 2, 3])] [0, 2, 1, 3]) 1 1,
    -- 444: x95 += einsum("iabc->ibca", v.ovvv) * -0.5
    .add 132 (.ein [(8, [0, 1, 2, 3])] [0, 2, 3, 1]) (-1) 2,
    -- 445: x97 += einsum("ia,ibac->bc", t1, x95) * 2
    .add 76 (.ein [(4, [0, 1]), (132, [0, 2, 1, 3])] [2, 3]) 2 1,
    -- 446: del x95
    .del 132,
    -- 447: x97 += einsum("ab->ab", f.vv)
    .add 76 (.ein [(15, [0, 1])] [0, 1]) 1 1,
    -- 448: u11new += einsum("ab,wib->wia", x97, u11)
    .add 55 (.ein [(76, [0, 1]), (10, [2, 3, 1])] [2, 3, 0]) 1 1,
    -- 449: del x97
    .del 76,
    -- 450: x98 += einsum("ia->ia", f.ov)
    .add 44 (.ein [(11, [0, 1])] [0, 1]) 1 1,
    -- 451: x99 += einsum("ia,wja->wij", x98, u11)
    .add 112 (.ein [(44, [0, 1]), (10, [2, 3, 1])] [2, 0, 3]) 1 1,
    -- 452: del x98
    .del 44,
    -- 453: x99 += einsum("wij->wij", gc.boo)
    .add 112 (.ein [(24, [0, 1, 2])] [0, 1, 2]) 1 1,
    -- 454: u11new -= einsum("ia,wij->wja", t1, x99)
    .add 55 (.ein [(4, [0, 1]), (112, [2, 0, 3])] [2, 3, 1]) (-1) 1,
    -- 455: del x99
    .del 112,
    -- 456: x100 += einsum("wab->wab", gc.bvv)
    .add 87 (.ein [(27, [0, 1, 2])] [0, 1, 2]) 1 1,
    -- 457: u11new += einsum("ia,wba->wib", t1, x100)
    .add 55 (.ein [(4, [0, 1]), (87, [2, 3, 1])] [2, 0, 3]) 1 1,
    -- 458: del x100
    .del 87,
    -- 459: x101 = np.zeros((nbos, nbos), dtype=types[float])
    .zeros 133 [2, 2],
    -- 460: x101 += einsum("wx->wx", w)
    .add 133 (.ein [(21, [0, 1])] [0, 1]) 1 1,
    -- 461: x101 += einsum("wia,xia->wx", g.bov, u11) * 2
    .add 133 (.ein [(2, [0, 1, 2]), (10, [3, 1, 2])] [0, 3]) 2 1,
    -- 462: u11new += einsum("wx,wia->xia", x101, u11)
    .add 55 (.ein [(133, [0, 1]), (10, [0, 2, 3])] [1, 2, 3]) 1 1,
    -- 463: del x101
    .del 133,
    -- 464: t1new += einsum("wab,wib->ia", g.bvv, u11) * 2
    .add 39 (.ein [(3, [0, 1, 2]), (10, [0, 3, 2])] [3, 1]) 2 1,
    -- 465: t1new += einsum("w,wai->ia", s1, g.bvo) * 2
    .add 39 (.ein [(9, [0]), (1, [0, 1, 2])] [2, 1]) 2 1,
    -- 466: t1new += einsum("ai->ia", f.vo) * 2
    .add 39 (.ein [(22, [0, 1])] [1, 0]) 2 1,
    -- 467: t2new -= einsum("ijab,jack->kicb", t2, v.ovvo)
    .add 32 (.ein [(6, [0, 1, 2, 3]), (12, [1, 2, 4, 5])] [5, 0, 4, 3]) (-1) 1,
    -- 468: t2new -= einsum("ijab,jkca->kibc", t2, v.oovv)
    .add 32 (.ein [(6, [0, 1, 2, 3]), (13, [1, 4, 5, 2])] [4, 0, 3, 5]) (-1) 1,
    -- 469: t2new -= einsum("ijab,jkcb->ikac", t2, v.oovv)
    .add 32 (.ein [(6, [0, 1, 2, 3]), (13, [1, 4, 5, 3])] [0, 4, 2, 5]) (-1) 1,
    -- 470: t2new += einsum("ijab,jbck->ikac", t2, v.ovvo) * 2
    .add 32 (.ein [(6, [0, 1, 2, 3]), (12, [1, 3, 4, 5])] [0, 5, 2, 4]) 2 1,
    -- 471: t2new += einsum("ijab,cadb->jidc", t2, v.vvvv)
    .add 32 (.ein [(6, [0, 1, 2, 3]), (17, [4, 2, 5, 3])] [1, 0, 5, 4]) 1 1,
    -- 472: t2new -= einsum("ia,ijbk->kjba", t1, v.oovo)
    .add 32 (.ein [(4, [0, 1]), (20, [0, 2, 3, 4])] [4, 2, 3, 1]) (-1) 1,
    -- 473: t2new += einsum("aibj->jiba", v.vovo)
    .add 32 (.ein [(23, [0, 1, 2, 3])] [3, 1, 2, 0]) 1 1,
    -- 474: s1new += einsum("ia,wia->w", t1, gc.bov) * 2
    .add 52 (.ein [(4, [0, 1]), (25, [2, 0, 1])] [2]) 2 1,
    -- 475: s1new += einsum("w,wx->x", s1, w)
    .add 52 (.ein [(9, [0]), (21, [0, 1])] [1]) 1 1,
    -- 476: s1new += einsum("w->w", G)
    .add 52 (.ein [(16, [0])] [0]) 1 1,
    -- 477: u11new += einsum("wai->wia", gc.bvo)
    .add 55 (.ein [(26, [0, 1, 2])] [0, 2, 1]) 1 1
  ]
  ret := [(chars! "t1new", 39), (chars! "t2new", 32), (chars! "s1new", 52), (chars! "u11new", 55)]

/-- codegen/RCCSD_S_1_1.py:481-1298 `update_lams`. -/
def update_lams : GenFun where
  args := [chars! "g.boo", chars! "g.bvo", chars! "g.bov", chars! "g.bvv", chars! "l1", chars! "t1", chars! "s1", chars! "f.ov", chars! "t2", chars! "v.ovvv", chars! "v.ovov", chars! "l2", chars! "v.ooov", chars! "v.oovv", chars! "v.ovvo", chars! "v.oooo", chars! "v.oovo", chars! "lu11", chars! "v.vvvv", chars! "v.vovv", chars! "u11", chars! "ls1", chars! "f.oo", chars! "f.vv", chars! "G", chars! "f.vo", chars! "w"]
  body := [
    -- 483: gc = Namespace(
    .set 27 (.tr 0 [0, 2, 1]) 1 1,
    .set 28 (.tr 1 [0, 2, 1]) 1 1,
    .set 29 (.tr 2 [0, 2, 1]) 1 1,
    .set 30 (.tr 3 [0, 2, 1]) 1 1,
    -- 491: x0 = np.zeros((nocc, nocc), dtype=types[float])
    .zeros 31 [0, 0],
    -- 492: x0 += einsum("ai,ja->ij", l1, t1)
    .add 31 (.ein [(4, [0, 1]), (5, [2, 0])] [1, 2]) 1 1,
    -- 493: x87 = np.zeros((nocc, nocc), dtype=types[float])
    .zeros 32 [0, 0],
    -- 494: x87 += einsum("ij->ij", x0) * 0.5
    .add 32 (.ein [(31, [0, 1])] [0, 1]) 1 2,
    -- 495: x95 = np.zeros((nocc, nocc), dtype=types[float])
    .zeros 33 [0, 0],
    -- 496: x95 += einsum("ij->ij", x0)
    .add 33 (.ein [(31, [0, 1])] [0, 1]) 1 1,
    -- 497: x114 = np.zeros((nocc, nocc), dtype=types[float])
    .zeros 34 [0, 0],
    -- 498: x114 += einsum("ij->ij", x0)
    .add 34 (.ein [(31, [0, 1])] [0, 1]) 1 1,
    -- 499: ls1new = np.zeros((nbos), dtype=types[float])
    .zeros 35 [2],
    -- 500: ls1new -= einsum("ij,wji->w", x0, g.boo) * 2
    .add 35 (.ein [(31, [0, 1]), (0, [2, 1, 0])] [2]) (-2) 1,
    -- 501: x1 = np.zeros((nocc, nvir), dtype=types[float])
    .zeros 36 [0, 1],
    -- 502: x1 += einsum("w,wia->ia", s1, g.bov)
    .add 36 (.ein [(6, [0]), (2, [0, 1, 2])] [1, 2]) 1 1,
    -- 503: x2 = np.zeros((nocc, nvir), dtype=types[float])
    .zeros 37 [0, 1],
    -- 504: x2 += einsum("ia->ia", x1)
    .add 37 (.ein [(36, [0, 1])] [0, 1]) 1 1,
    -- 505: x60 = np.zeros((nocc, nvir), dtype=types[float])
    .zeros 38 [0, 1],
    -- 506: x60 += einsum("ia->ia", x1)
    .add 38 (.ein [(36, [0, 1])] [0, 1]) 1 1,
    -- 507: x69 = np.zeros((nocc, nvir), dtype=types[float])
    .zeros 39 [0, 1],
    -- 508: x69 += einsum("ia->ia", x1) * 0.5
    .add 39 (.ein [(36, [0, 1])] [0, 1]) 1 2,
    -- 509: x99 = np.zeros((nocc, nvir), dtype=types[float])
    .zeros 40 [0, 1],
    -- 510: x99 += einsum("ia->ia", x1)
    .add 40 (.ein [(36, [0, 1])] [0, 1]) 1 1,
    -- 511: x141 = np.zeros((nocc, nvir), dtype=types[float])
    .zeros 41 [0, 1],
    -- 512: x141 += einsum("ia->ia", x1)
    .add 41 (.ein [(36, [0, 1])] [0, 1]) 1 1,
    -- 513: l1new = np.zeros((nvir, nocc), dtype=types[float])
    .zeros 42 [1, 0],
    -- 514: l1new -= einsum("ij,ja->ai", x0, x1)
    .add 42 (.ein [(31, [0, 1]), (36, [1, 2])] [2, 0]) (-1) 1,
    -- 515: del x0
    .del 31,
    -- 516: del x1
    .del 36,
    -- 517: x2 += einsum("ia->ia", f.ov)
    .add 37 (.ein [(7, [0, 1])] [0, 1]) 1 1,
    -- 518: x3 = np.zeros((nocc, nocc, nocc, nvir), dtype=types[float])
    .zeros 43 [0, 0, 0, 1],
    -- 519: x3 += einsum("ia,jkab->jkib", x2, t2) * 2
    .add 43 (.ein [(37, [0, 1]), (8, [2, 3, 1, 4])] [2, 3, 0, 4]) 2 1,
    -- 520: del x2
    .del 37,
    -- 521: x17 = np.zeros((nocc, nocc, nocc, nvir), dtype=types[float])
    .zeros 44 [0, 0, 0, 1],
    -- 522: x17 += einsum("ijka->jkia", x3) * -1
    .add 44 (.ein [(43, [0, 1, 2, 3])] [1, 2, 0, 3]) (-1) 1,
    -- 523: x17 += einsum("ijka->ikja", x3) * 0.5
    .add 44 (.ein [(43, [0, 1, 2, 3])] [0, 2, 1, 3]) 1 2,
    -- 524: del x3
    .del 43,
    -- 525: x4 = np.zeros((nocc, nocc, nocc, nvir), dtype=types[float])
    .zeros 45 [0, 0, 0, 1],
    -- 526: x4 += einsum("ijab,kbca->jikc", t2, v.ovvv)
    .add 45 (.ein [(8, [0, 1, 2, 3]), (9, [4, 3, 5, 2])] [1, 0, 4, 5]) 1 1,
    -- 527: x7 = np.zeros((nocc, nocc, nocc, nvir), dtype=types[float])
    .zeros 46 [0, 0, 0, 1],
    -- 528: x7 += einsum("ijka->ijka", x4)
    .add 46 (.ein [(45, [0, 1, 2, 3])] [0, 1, 2, 3]) 1 1,
    -- 529: del x4
    .del 45,
    -- 530: x5 = np.zeros((nocc, nocc, nocc, nocc), dtype=types[float])
    .zeros 47 [0, 0, 0, 0],
    -- 531: x5 += einsum("ijab,kalb->ijkl", t2, v.ovov)
    .add 47 (.ein [(8, [0, 1, 2, 3]), (10, [4, 2, 5, 3])] [0, 1, 4, 5]) 1 1,
    -- 532: x6 = np.zeros((nocc, nocc, nocc, nvir), dtype=types[float])
    .zeros 48 [0, 0, 0, 1],
    -- 533: x6 += einsum("ia,jkli->jkla", t1, x5)
    .add 48 (.ein [(5, [0, 1]), (47, [2, 3, 4, 0])] [2, 3, 4, 1]) 1 1,
    -- 534: x7 += einsum("ijka->ijka", x6) * -1
    .add 46 (.ein [(48, [0, 1, 2, 3])] [0, 1, 2, 3]) (-1) 1,
    -- 535: del x6
    .del 48,
    -- 536: x17 += einsum("ijka->ikja", x7)
    .add 44 (.ein [(46, [0, 1, 2, 3])] [0, 2, 1, 3]) 1 1,
    -- 537: x17 += einsum("ijka->jkia", x7) * -2
    .add 44 (.ein [(46, [0, 1, 2, 3])] [1, 2, 0, 3]) (-2) 1,
    -- 538: del x7
    .del 46,
    -- 539: x169 = np.zeros((nocc, nocc, nocc, nocc), dtype=types[float])
    .zeros 49 [0, 0, 0, 0],
    -- 540: x169 += einsum("ijkl->lkji", x5)
    .add 49 (.ein [(47, [0, 1, 2, 3])] [3, 2, 1, 0]) 1 1,
    -- 541: del x5
    .del 47,
    -- 542: x8 = np.zeros((nocc, nocc, nvir, nvir), dtype=types[float])
    .zeros 50 [0, 0, 1, 1],
    -- 543: x8 += einsum("iajb->jiba", v.ovov)
    .add 50 (.ein [(10, [0, 1, 2, 3])] [2, 0, 3, 1]) 1 1,
    -- 544: x8 += einsum("iajb->jiab", v.ovov) * -0.5
    .add 50 (.ein [(10, [0, 1, 2, 3])] [2, 0, 1, 3]) (-1) 2,
    -- 545: x9 = np.zeros((nocc, nvir), dtype=types[float])
    .zeros 51 [0, 1],
    -- 546: x9 += einsum("ia,ijab->jb", t1, x8)
    .add 51 (.ein [(5, [0, 1]), (50, [0, 2, 1, 3])] [2, 3]) 1 1,
    -- 547: x10 = np.zeros((nocc, nocc, nocc, nvir), dtype=types[float])
    .zeros 52 [0, 0, 0, 1],
    -- 548: x10 += einsum("ia,jkab->jkib", x9, t2) * 4
    .add 52 (.ein [(51, [0, 1]), (8, [2, 3, 1, 4])] [2, 3, 0, 4]) 4 1,
    -- 549: x17 += einsum("ijka->jkia", x10) * -1
    .add 44 (.ein [(52, [0, 1, 2, 3])] [1, 2, 0, 3]) (-1) 1,
    -- 550: x17 += einsum("ijka->ikja", x10) * 0.5
    .add 44 (.ein [(52, [0, 1, 2, 3])] [0, 2, 1, 3]) 1 2,
    -- 551: del x10
    .del 52,
    -- 552: x69 += einsum("ia->ia", x9)
    .add 39 (.ein [(51, [0, 1])] [0, 1]) 1 1,
    -- 553: del x9
    .del 51,
    -- 554: x59 = np.zeros((nocc, nvir), dtype=types[float])
    .zeros 53 [0, 1],
    -- 555: x59 += einsum("ia,ijab->jb", t1, x8) * 2
    .add 53 (.ein [(5, [0, 1]), (50, [0, 2, 1, 3])] [2, 3]) 2 1,
    -- 556: x60 += einsum("ia->ia", x59)
    .add 38 (.ein [(53, [0, 1])] [0, 1]) 1 1,
    -- 557: x177 = np.zeros((nvir, nvir), dtype=types[float])
    .zeros 54 [1, 1],
    -- 558: x177 += einsum("ia,ib->ab", t1, x59) * -1
    .add 54 (.ein [(5, [0, 1]), (53, [0, 2])] [1, 2]) (-1) 1,
    -- 559: del x59
    .del 53,
    -- 560: x66 = np.zeros((nocc, nocc), dtype=types[float])
    .zeros 55 [0, 0],
    -- 561: x66 += einsum("ijab,ikab->jk", t2, x8) * 2
    .add 55 (.ein [(8, [0, 1, 2, 3]), (50, [0, 4, 2, 3])] [1, 4]) 2 1,
    -- 562: x71 = np.zeros((nocc, nocc), dtype=types[float])
    .zeros 56 [0, 0],
    -- 563: x71 += einsum("ij->ji", x66)
    .add 56 (.ein [(55, [0, 1])] [1, 0]) 1 1,
    -- 564: del x66
    .del 55,
    -- 565: x159 = np.zeros((nvir, nvir), dtype=types[float])
    .zeros 57 [1, 1],
    -- 566: x159 += einsum("ijab,ijac->bc", t2, x8)
    .add 57 (.ein [(8, [0, 1, 2, 3]), (50, [0, 1, 2, 4])] [3, 4]) 1 1,
    -- 567: del x8
    .del 50,
    -- 568: x160 = np.zeros((nocc, nocc, nvir, nvir), dtype=types[float])
    .zeros 58 [0, 0, 1, 1],
    -- 569: x160 += einsum("ab,acij->ijcb", x159, l2) * 2
    .add 58 (.ein [(57, [0, 1]), (11, [0, 2, 3, 4])] [3, 4, 2, 1]) 2 1,
    -- 570: del x159
    .del 57,
    -- 571: x164 = np.zeros((nocc, nocc, nvir, nvir), dtype=types[float])
    .zeros 59 [0, 0, 1, 1],
    -- 572: x164 += einsum("ijab->jiab", x160)
    .add 59 (.ein [(58, [0, 1, 2, 3])] [1, 0, 2, 3]) 1 1,
    -- 573: del x160
    .del 58,
    -- 574: x11 = np.zeros((nocc, nocc, nocc, nvir), dtype=types[float])
    .zeros 60 [0, 0, 0, 1],
    -- 575: x11 += einsum("ia,jbka->ijkb", t1, v.ovov)
    .add 60 (.ein [(5, [0, 1]), (10, [2, 3, 4, 1])] [0, 2, 4, 3]) 1 1,
    -- 576: x12 = np.zeros((nocc, nocc, nocc, nvir), dtype=types[float])
    .zeros 61 [0, 0, 0, 1],
    -- 577: x12 += einsum("ijka->ijka", x11) * -0.5
    .add 61 (.ein [(60, [0, 1, 2, 3])] [0, 1, 2, 3]) (-1) 2,
    -- 578: x12 += einsum("ijka->ikja", x11)
    .add 61 (.ein [(60, [0, 1, 2, 3])] [0, 2, 1, 3]) 1 1,
    -- 579: x13 = np.zeros((nocc, nocc, nocc, nvir), dtype=types[float])
    .zeros 62 [0, 0, 0, 1],
    -- 580: x13 += einsum("ijka->ijka", x11) * 2
    .add 62 (.ein [(60, [0, 1, 2, 3])] [0, 1, 2, 3]) 2 1,
    -- 581: x13 += einsum("ijka->ikja", x11) * -1
    .add 62 (.ein [(60, [0, 1, 2, 3])] [0, 2, 1, 3]) (-1) 1,
    -- 582: x20 = np.zeros((nocc, nocc, nocc, nocc), dtype=types[float])
    .zeros 63 [0, 0, 0, 0],
    -- 583: x20 += einsum("ia,jkla->jilk", t1, x11)
    .add 63 (.ein [(5, [0, 1]), (60, [2, 3, 4, 1])] [2, 0, 4, 3]) 1 1,
    -- 584: x21 = np.zeros((nocc, nocc, nocc, nvir), dtype=types[float])
    .zeros 64 [0, 0, 0, 1],
    -- 585: x21 += einsum("ia,jkil->kjla", t1, x20)
    .add 64 (.ein [(5, [0, 1]), (63, [2, 3, 0, 4])] [3, 2, 4, 1]) 1 1,
    -- 586: x22 = np.zeros((nocc, nocc, nocc, nvir), dtype=types[float])
    .zeros 65 [0, 0, 0, 1],
    -- 587: x22 += einsum("ijka->ijka", x21) * 2.0000000000000013
    .add 65 (.ein [(64, [0, 1, 2, 3])] [0, 1, 2, 3]) 2 1,
    -- 588: del x21
    .del 64,
    -- 589: l2new = np.zeros((nvir, nvir, nocc, nocc), dtype=types[float])
    .zeros 66 [1, 1, 0, 0],
    -- 590: l2new += einsum("abij,ijkl->abkl", l2, x20)
    .add 66 (.ein [(11, [0, 1, 2, 3]), (63, [2, 3, 4, 5])] [0, 1, 4, 5]) 1 1,
    -- 591: del x20
    .del 63,
    -- 592: x23 = np.zeros((nocc, nocc, nocc, nvir), dtype=types[float])
    .zeros 67 [0, 0, 0, 1],
    -- 593: x23 += einsum("ijka->ijka", x11)
    .add 67 (.ein [(60, [0, 1, 2, 3])] [0, 1, 2, 3]) 1 1,
    -- 594: x23 += einsum("ijka->ikja", x11) * -0.5
    .add 67 (.ein [(60, [0, 1, 2, 3])] [0, 2, 1, 3]) (-1) 2,
    -- 595: x58 = np.zeros((nocc, nocc, nocc, nvir), dtype=types[float])
    .zeros 68 [0, 0, 0, 1],
    -- 596: x58 += einsum("ijka->jkia", x11) * -1
    .add 68 (.ein [(60, [0, 1, 2, 3])] [1, 2, 0, 3]) (-1) 1,
    -- 597: x58 += einsum("ijka->kjia", x11) * 2
    .add 68 (.ein [(60, [0, 1, 2, 3])] [2, 1, 0, 3]) 2 1,
    -- 598: x144 = np.zeros((nocc, nocc, nvir, nvir), dtype=types[float])
    .zeros 69 [0, 0, 1, 1],
    -- 599: x144 += einsum("ai,ijkb->jkab", l1, x11)
    .add 69 (.ein [(4, [0, 1]), (60, [1, 2, 3, 4])] [2, 3, 0, 4]) 1 1,
    -- 600: x158 = np.zeros((nocc, nocc, nvir, nvir), dtype=types[float])
    .zeros 70 [0, 0, 1, 1],
    -- 601: x158 += einsum("ijab->ijab", x144)
    .add 70 (.ein [(69, [0, 1, 2, 3])] [0, 1, 2, 3]) 1 1,
    -- 602: del x144
    .del 69,
    -- 603: x12 += einsum("ijka->jika", v.ooov)
    .add 61 (.ein [(12, [0, 1, 2, 3])] [1, 0, 2, 3]) 1 1,
    -- 604: x12 += einsum("ijka->jkia", v.ooov) * -0.5
    .add 61 (.ein [(12, [0, 1, 2, 3])] [1, 2, 0, 3]) (-1) 2,
    -- 605: x17 += einsum("ijab,kilb->klja", t2, x12) * 2
    .add 44 (.ein [(8, [0, 1, 2, 3]), (61, [4, 0, 5, 3])] [4, 5, 1, 2]) 2 1,
    -- 606: del x12
    .del 61,
    -- 607: x13 += einsum("ijka->jika", v.ooov) * -1
    .add 62 (.ein [(12, [0, 1, 2, 3])] [1, 0, 2, 3]) (-1) 1,
    -- 608: x13 += einsum("ijka->jkia", v.ooov) * 2
    .add 62 (.ein [(12, [0, 1, 2, 3])] [1, 2, 0, 3]) 2 1,
    -- 609: x17 += einsum("ijab,kila->kljb", t2, x13)
    .add 44 (.ein [(8, [0, 1, 2, 3]), (62, [4, 0, 5, 2])] [4, 5, 1, 3]) 1 1,
    -- 610: del x13
    .del 62,
    -- 611: x14 = np.zeros((nocc, nocc, nvir, nvir), dtype=types[float])
    .zeros 71 [0, 0, 1, 1],
    -- 612: x14 += einsum("ijab->ijab", v.oovv) * 2
    .add 71 (.ein [(13, [0, 1, 2, 3])] [0, 1, 2, 3]) 2 1,
    -- 613: x14 += einsum("iabj->ijba", v.ovvo) * -1
    .add 71 (.ein [(14, [0, 1, 2, 3])] [0, 3, 2, 1]) (-1) 1,
    -- 614: x17 += einsum("ia,jkba->ijkb", t1, x14) * -1
    .add 44 (.ein [(5, [0, 1]), (71, [2, 3, 4, 1])] [0, 2, 3, 4]) (-1) 1,
    -- 615: del x14
    .del 71,
    -- 616: x15 = np.zeros((nocc, nocc, nocc, nocc), dtype=types[float])
    .zeros 72 [0, 0, 0, 0],
    -- 617: x15 += einsum("ia,jkla->ijlk", t1, v.ooov)
    .add 72 (.ein [(5, [0, 1]), (12, [2, 3, 4, 1])] [0, 2, 4, 3]) 1 1,
    -- 618: x16 = np.zeros((nocc, nocc, nocc, nocc), dtype=types[float])
    .zeros 73 [0, 0, 0, 0],
    -- 619: x16 += einsum("ijkl->jkil", x15) * -0.5
    .add 73 (.ein [(72, [0, 1, 2, 3])] [1, 2, 0, 3]) (-1) 2,
    -- 620: x16 += einsum("ijkl->kjil", x15)
    .add 73 (.ein [(72, [0, 1, 2, 3])] [2, 1, 0, 3]) 1 1,
    -- 621: x26 = np.zeros((nocc, nocc, nocc, nocc), dtype=types[float])
    .zeros 74 [0, 0, 0, 0],
    -- 622: x26 += einsum("ijkl->ijkl", x15)
    .add 74 (.ein [(72, [0, 1, 2, 3])] [0, 1, 2, 3]) 1 1,
    -- 623: x26 += einsum("ijkl->ikjl", x15) * -0.5
    .add 74 (.ein [(72, [0, 1, 2, 3])] [0, 2, 1, 3]) (-1) 2,
    -- 624: x27 = np.zeros((nocc, nocc, nocc, nvir), dtype=types[float])
    .zeros 75 [0, 0, 0, 1],
    -- 625: x27 += einsum("ia,jikl->jkla", t1, x26) * 2
    .add 75 (.ein [(5, [0, 1]), (74, [2, 0, 3, 4])] [2, 3, 4, 1]) 2 1,
    -- 626: del x26
    .del 74,
    -- 627: x146 = np.zeros((nocc, nocc, nvir, nvir), dtype=types[float])
    .zeros 76 [0, 0, 1, 1],
    -- 628: x146 += einsum("abij,jkli->klba", l2, x15)
    .add 76 (.ein [(11, [0, 1, 2, 3]), (72, [3, 4, 5, 2])] [4, 5, 1, 0]) 1 1,
    -- 629: del x15
    .del 72,
    -- 630: x158 -= einsum("ijab->ijab", x146)
    .add 70 (.ein [(76, [0, 1, 2, 3])] [0, 1, 2, 3]) (-1) 1,
    -- 631: del x146
    .del 76,
    -- 632: x16 += einsum("ijkl->kilj", v.oooo)
    .add 73 (.ein [(15, [0, 1, 2, 3])] [2, 0, 3, 1]) 1 1,
    -- 633: x16 += einsum("ijkl->kijl", v.oooo) * -0.5
    .add 73 (.ein [(15, [0, 1, 2, 3])] [2, 0, 1, 3]) (-1) 2,
    -- 634: x17 += einsum("ia,ijkl->kjla", t1, x16) * 2
    .add 44 (.ein [(5, [0, 1]), (73, [0, 2, 3, 4])] [3, 2, 4, 1]) 2 1,
    -- 635: del x16
    .del 73,
    -- 636: x17 += einsum("ijak->jika", v.oovo)
    .add 44 (.ein [(16, [0, 1, 2, 3])] [1, 0, 3, 2]) 1 1,
    -- 637: x17 += einsum("ijak->kija", v.oovo) * -2
    .add 44 (.ein [(16, [0, 1, 2, 3])] [3, 0, 1, 2]) (-2) 1,
    -- 638: l1new += einsum("abij,jkib->ak", l2, x17)
    .add 42 (.ein [(11, [0, 1, 2, 3]), (44, [3, 4, 2, 1])] [0, 4]) 1 1,
    -- 639: del x17
    .del 44,
    -- 640: x18 = np.zeros((nocc, nocc, nvir, nvir), dtype=types[float])
    .zeros 77 [0, 0, 1, 1],
    -- 641: x18 += einsum("ia,jabc->ijbc", t1, v.ovvv)
    .add 77 (.ein [(5, [0, 1]), (9, [2, 1, 3, 4])] [0, 2, 3, 4]) 1 1,
    -- 642: x19 = np.zeros((nocc, nocc, nocc, nvir), dtype=types[float])
    .zeros 78 [0, 0, 0, 1],
    -- 643: x19 += einsum("ia,jkba->jikb", t1, x18)
    .add 78 (.ein [(5, [0, 1]), (77, [2, 3, 4, 1])] [2, 0, 3, 4]) 1 1,
    -- 644: x22 += einsum("ijka->ijka", x19) * -2
    .add 65 (.ein [(78, [0, 1, 2, 3])] [0, 1, 2, 3]) (-2) 1,
    -- 645: del x19
    .del 78,
    -- 646: x27 += einsum("ijka->ikja", x22)
    .add 75 (.ein [(65, [0, 1, 2, 3])] [0, 2, 1, 3]) 1 1,
    -- 647: x27 += einsum("ijka->jkia", x22) * -0.5
    .add 75 (.ein [(65, [0, 1, 2, 3])] [1, 2, 0, 3]) (-1) 2,
    -- 648: del x22
    .del 65,
    -- 649: x129 = np.zeros((nocc, nocc, nvir, nvir), dtype=types[float])
    .zeros 79 [0, 0, 1, 1],
    -- 650: x129 += einsum("ijab->ijab", x18)
    .add 79 (.ein [(77, [0, 1, 2, 3])] [0, 1, 2, 3]) 1 1,
    -- 651: del x18
    .del 77,
    -- 652: x23 += einsum("ijka->jika", v.ooov) * -0.5
    .add 67 (.ein [(12, [0, 1, 2, 3])] [1, 0, 2, 3]) (-1) 2,
    -- 653: x23 += einsum("ijka->jkia", v.ooov)
    .add 67 (.ein [(12, [0, 1, 2, 3])] [1, 2, 0, 3]) 1 1,
    -- 654: x24 = np.zeros((nocc, nocc, nvir, nvir), dtype=types[float])
    .zeros 80 [0, 0, 1, 1],
    -- 655: x24 += einsum("ijab->jiba", t2) * -1
    .add 80 (.ein [(8, [0, 1, 2, 3])] [1, 0, 3, 2]) (-1) 1,
    -- 656: x24 += einsum("ijab->jiab", t2) * 2
    .add 80 (.ein [(8, [0, 1, 2, 3])] [1, 0, 2, 3]) 2 1,
    -- 657: x27 += einsum("ijka,jlba->iklb", x23, x24) * -2
    .add 75 (.ein [(67, [0, 1, 2, 3]), (80, [1, 4, 5, 3])] [0, 2, 4, 5]) (-2) 1,
    -- 658: del x23
    .del 67,
    -- 659: x25 = np.zeros((nocc, nocc, nvir, nvir), dtype=types[float])
    .zeros 81 [0, 0, 1, 1],
    -- 660: x25 += einsum("iabj->ijba", v.ovvo) * 2
    .add 81 (.ein [(14, [0, 1, 2, 3])] [0, 3, 2, 1]) 2 1,
    -- 661: x25 += einsum("ijab->ijab", v.oovv) * -1
    .add 81 (.ein [(13, [0, 1, 2, 3])] [0, 1, 2, 3]) (-1) 1,
    -- 662: x27 += einsum("ia,jkba->ijkb", t1, x25) * -1
    .add 75 (.ein [(5, [0, 1]), (81, [2, 3, 4, 1])] [0, 2, 3, 4]) (-1) 1,
    -- 663: del x25
    .del 81,
    -- 664: l1new += einsum("abij,jkia->bk", l2, x27)
    .add 42 (.ein [(11, [0, 1, 2, 3]), (75, [3, 4, 2, 0])] [1, 4]) 1 1,
    -- 665: del x27
    .del 75,
    -- 666: x28 = np.zeros((nocc, nocc, nvir, nvir), dtype=types[float])
    .zeros 82 [0, 0, 1, 1],
    -- 667: x28 += einsum("ijab->jiba", t2) * 2
    .add 82 (.ein [(8, [0, 1, 2, 3])] [1, 0, 3, 2]) 2 1,
    -- 668: x28 -= einsum("ijab->jiab", t2)
    .add 82 (.ein [(8, [0, 1, 2, 3])] [1, 0, 2, 3]) (-1) 1,
    -- 669: x29 = np.zeros((nocc, nocc, nvir, nvir), dtype=types[float])
    .zeros 83 [0, 0, 1, 1],
    -- 670: x29 -= einsum("abij,ikac->jkbc", l2, x28)
    .add 83 (.ein [(11, [0, 1, 2, 3]), (82, [2, 4, 0, 5])] [3, 4, 1, 5]) (-1) 1,
    -- 671: x125 = np.zeros((nocc, nocc, nvir, nvir), dtype=types[float])
    .zeros 84 [0, 0, 1, 1],
    -- 672: x125 += einsum("iajb,ikac->jkbc", v.ovov, x28)
    .add 84 (.ein [(10, [0, 1, 2, 3]), (82, [0, 4, 1, 5])] [2, 4, 3, 5]) 1 1,
    -- 673: x126 = np.zeros((nocc, nocc, nvir, nvir), dtype=types[float])
    .zeros 85 [0, 0, 1, 1],
    -- 674: x126 += einsum("ijab->jiba", x125)
    .add 85 (.ein [(84, [0, 1, 2, 3])] [1, 0, 3, 2]) 1 1,
    -- 675: del x125
    .del 84,
    -- 676: x173 = np.zeros((nbos, nocc, nvir), dtype=types[float])
    .zeros 86 [2, 0, 1],
    -- 677: x173 += einsum("wia,ijab->wjb", g.bov, x28)
    .add 86 (.ein [(2, [0, 1, 2]), (82, [1, 3, 2, 4])] [0, 3, 4]) 1 1,
    -- 678: x174 = np.zeros((nbos, nocc, nvir), dtype=types[float])
    .zeros 87 [2, 0, 1],
    -- 679: x174 -= einsum("wai,ijab->wjb", lu11, x28)
    .add 87 (.ein [(17, [0, 1, 2]), (82, [2, 3, 1, 4])] [0, 3, 4]) (-1) 1,
    -- 680: del x28
    .del 82,
    -- 681: x29 += einsum("abij,kicb->jkac", l2, t2)
    .add 83 (.ein [(11, [0, 1, 2, 3]), (8, [4, 2, 5, 1])] [3, 4, 0, 5]) 1 1,
    -- 682: x30 = np.zeros((nocc, nvir, nvir, nvir), dtype=types[float])
    .zeros 88 [0, 1, 1, 1],
    -- 683: x30 -= einsum("iabc->ibac", v.ovvv)
    .add 88 (.ein [(9, [0, 1, 2, 3])] [0, 2, 1, 3]) (-1) 1,
    -- 684: x30 += einsum("iabc->ibca", v.ovvv) * 2
    .add 88 (.ein [(9, [0, 1, 2, 3])] [0, 2, 3, 1]) 2 1,
    -- 685: l1new -= einsum("ijab,jacb->ci", x29, x30)
    .add 42 (.ein [(83, [0, 1, 2, 3]), (88, [1, 2, 4, 3])] [4, 0]) (-1) 1,
    -- 686: del x29
    .del 83,
    -- 687: del x30
    .del 88,
    -- 688: x31 = np.zeros((nocc, nvir, nvir, nvir), dtype=types[float])
    .zeros 89 [0, 1, 1, 1],
    -- 689: x31 += einsum("ia,bacd->icbd", t1, v.vvvv)
    .add 89 (.ein [(5, [0, 1]), (18, [2, 1, 3, 4])] [0, 3, 2, 4]) 1 1,
    -- 690: x32 = np.zeros((nocc, nvir, nvir, nvir), dtype=types[float])
    .zeros 90 [0, 1, 1, 1],
    -- 691: x32 += einsum("iabc->ibac", x31) * -0.5
    .add 90 (.ein [(89, [0, 1, 2, 3])] [0, 2, 1, 3]) (-1) 2,
    -- 692: x32 += einsum("iabc->iabc", x31)
    .add 90 (.ein [(89, [0, 1, 2, 3])] [0, 1, 2, 3]) 1 1,
    -- 693: del x31
    .del 89,
    -- 694: x32 += einsum("aibc->ibac", v.vovv)
    .add 90 (.ein [(19, [0, 1, 2, 3])] [1, 2, 0, 3]) 1 1,
    -- 695: x32 += einsum("aibc->iabc", v.vovv) * -0.5
    .add 90 (.ein [(19, [0, 1, 2, 3])] [1, 0, 2, 3]) (-1) 2,
    -- 696: l1new += einsum("abij,ibac->cj", l2, x32) * 2
    .add 42 (.ein [(11, [0, 1, 2, 3]), (90, [2, 1, 0, 4])] [4, 3]) 2 1,
    -- 697: del x32
    .del 90,
    -- 698: x33 = np.zeros((nocc, nocc, nocc, nvir), dtype=types[float])
    .zeros 91 [0, 0, 0, 1],
    -- 699: x33 += einsum("ai,jkba->ijkb", l1, t2)
    .add 91 (.ein [(4, [0, 1]), (8, [2, 3, 4, 0])] [1, 2, 3, 4]) 1 1,
    -- 700: x41 = np.zeros((nocc, nocc, nocc, nvir), dtype=types[float])
    .zeros 92 [0, 0, 0, 1],
    -- 701: x41 += einsum("ijka->ijka", x33) * -2
    .add 92 (.ein [(91, [0, 1, 2, 3])] [0, 1, 2, 3]) (-2) 1,
    -- 702: x41 += einsum("ijka->ikja", x33)
    .add 92 (.ein [(91, [0, 1, 2, 3])] [0, 2, 1, 3]) 1 1,
    -- 703: del x33
    .del 91,
    -- 704: x34 = np.zeros((nocc, nocc, nocc, nvir), dtype=types[float])
    .zeros 93 [0, 0, 0, 1],
    -- 705: x34 += einsum("ia,abjk->kjib", t1, l2)
    .add 93 (.ein [(5, [0, 1]), (11, [1, 2, 3, 4])] [4, 3, 0, 2]) 1 1,
    -- 706: x35 = np.zeros((nocc, nocc, nocc, nocc), dtype=types[float])
    .zeros 94 [0, 0, 0, 0],
    -- 707: x35 += einsum("ia,jkla->jkil", t1, x34)
    .add 94 (.ein [(5, [0, 1]), (93, [2, 3, 4, 1])] [2, 3, 0, 4]) 1 1,
    -- 708: x36 = np.zeros((nocc, nocc, nocc, nvir), dtype=types[float])
    .zeros 95 [0, 0, 0, 1],
    -- 709: x36 += einsum("ia,jikl->jkla", t1, x35)
    .add 95 (.ein [(5, [0, 1]), (94, [2, 0, 3, 4])] [2, 3, 4, 1]) 1 1,
    -- 710: x41 += einsum("ijka->ijka", x36) * -1
    .add 92 (.ein [(95, [0, 1, 2, 3])] [0, 1, 2, 3]) (-1) 1,
    -- 711: x41 += einsum("ijka->ikja", x36) * 2.0000000000000013
    .add 92 (.ein [(95, [0, 1, 2, 3])] [0, 2, 1, 3]) 2 1,
    -- 712: del x36
    .del 95,
    -- 713: x52 = np.zeros((nocc, nocc, nocc, nocc), dtype=types[float])
    .zeros 96 [0, 0, 0, 0],
    -- 714: x52 += einsum("ijkl->ijlk", x35) * 2
    .add 96 (.ein [(94, [0, 1, 2, 3])] [0, 1, 3, 2]) 2 1,
    -- 715: x52 += einsum("ijkl->ijkl", x35) * -1
    .add 96 (.ein [(94, [0, 1, 2, 3])] [0, 1, 2, 3]) (-1) 1,
    -- 716: l1new += einsum("ijka,ljik->al", v.ooov, x52)
    .add 42 (.ein [(12, [0, 1, 2, 3]), (96, [4, 1, 0, 2])] [3, 4]) 1 1,
    -- 717: del x52
    .del 96,
    -- 718: l2new += einsum("iajb,klij->balk", v.ovov, x35)
    .add 66 (.ein [(10, [0, 1, 2, 3]), (94, [4, 5, 0, 2])] [3, 1, 5, 4]) 1 1,
    -- 719: del x35
    .del 94,
    -- 720: x37 = np.zeros((nocc, nocc, nocc, nvir), dtype=types[float])
    .zeros 97 [0, 0, 0, 1],
    -- 721: x37 += einsum("ijka->ijka", x34) * -0.5
    .add 97 (.ein [(93, [0, 1, 2, 3])] [0, 1, 2, 3]) (-1) 2,
    -- 722: x37 += einsum("ijka->jika", x34)
    .add 97 (.ein [(93, [0, 1, 2, 3])] [1, 0, 2, 3]) 1 1,
    -- 723: x41 += einsum("ijab,kila->kljb", t2, x37) * 2
    .add 92 (.ein [(8, [0, 1, 2, 3]), (97, [4, 0, 5, 2])] [4, 5, 1, 3]) 2 1,
    -- 724: x45 = np.zeros((nocc, nocc, nocc, nvir), dtype=types[float])
    .zeros 98 [0, 0, 0, 1],
    -- 725: x45 += einsum("ijab,kilb->klja", x24, x37) * -1
    .add 98 (.ein [(80, [0, 1, 2, 3]), (97, [4, 0, 5, 3])] [4, 5, 1, 2]) (-1) 1,
    -- 726: del x24
    .del 80,
    -- 727: del x37
    .del 97,
    -- 728: x38 = np.zeros((nocc, nocc, nocc, nvir), dtype=types[float])
    .zeros 99 [0, 0, 0, 1],
    -- 729: x38 += einsum("ijka->ijka", x34) * 2
    .add 99 (.ein [(93, [0, 1, 2, 3])] [0, 1, 2, 3]) 2 1,
    -- 730: x38 += einsum("ijka->jika", x34) * -1
    .add 99 (.ein [(93, [0, 1, 2, 3])] [1, 0, 2, 3]) (-1) 1,
    -- 731: x41 += einsum("ijab,kilb->klja", t2, x38)
    .add 92 (.ein [(8, [0, 1, 2, 3]), (99, [4, 0, 5, 3])] [4, 5, 1, 2]) 1 1,
    -- 732: del x38
    .del 99,
    -- 733: x46 = np.zeros((nocc, nocc, nocc, nvir), dtype=types[float])
    .zeros 100 [0, 0, 0, 1],
    -- 734: x46 += einsum("ijka->ijka", x34) * 2
    .add 100 (.ein [(93, [0, 1, 2, 3])] [0, 1, 2, 3]) 2 1,
    -- 735: x46 -= einsum("ijka->jika", x34)
    .add 100 (.ein [(93, [0, 1, 2, 3])] [1, 0, 2, 3]) (-1) 1,
    -- 736: x47 = np.zeros((nocc, nocc, nvir, nvir), dtype=types[float])
    .zeros 101 [0, 0, 1, 1],
    -- 737: x47 += einsum("ia,ijkb->jkba", t1, x46)
    .add 101 (.ein [(5, [0, 1]), (100, [0, 2, 3, 4])] [2, 3, 4, 1]) 1 1,
    -- 738: l1new -= einsum("iabc,jibc->aj", v.ovvv, x47)
    .add 42 (.ein [(9, [0, 1, 2, 3]), (101, [4, 0, 2, 3])] [1, 4]) (-1) 1,
    -- 739: del x47
    .del 101,
    -- 740: x131 = np.zeros((nocc, nocc, nvir, nvir), dtype=types[float])
    .zeros 102 [0, 0, 1, 1],
    -- 741: x131 += einsum("ijka,likb->jlab", x11, x46)
    .add 102 (.ein [(60, [0, 1, 2, 3]), (100, [4, 0, 2, 5])] [1, 4, 3, 5]) 1 1,
    -- 742: x142 = np.zeros((nocc, nocc, nvir, nvir), dtype=types[float])
    .zeros 103 [0, 0, 1, 1],
    -- 743: x142 -= einsum("ijab->jiba", x131)
    .add 103 (.ein [(102, [0, 1, 2, 3])] [1, 0, 3, 2]) (-1) 1,
    -- 744: del x131
    .del 102,
    -- 745: l1new -= einsum("iabj,jkib->ak", v.ovvo, x46)
    .add 42 (.ein [(14, [0, 1, 2, 3]), (100, [3, 4, 0, 2])] [1, 4]) (-1) 1,
    -- 746: del x46
    .del 100,
    -- 747: x48 = np.zeros((nocc, nocc, nocc, nvir), dtype=types[float])
    .zeros 104 [0, 0, 0, 1],
    -- 748: x48 -= einsum("ijka->ijka", x34)
    .add 104 (.ein [(93, [0, 1, 2, 3])] [0, 1, 2, 3]) (-1) 1,
    -- 749: x48 += einsum("ijka->jika", x34) * 2
    .add 104 (.ein [(93, [0, 1, 2, 3])] [1, 0, 2, 3]) 2 1,
    -- 750: x49 = np.zeros((nocc, nocc, nvir, nvir), dtype=types[float])
    .zeros 105 [0, 0, 1, 1],
    -- 751: x49 += einsum("ia,ijkb->jkba", t1, x48)
    .add 105 (.ein [(5, [0, 1]), (104, [0, 2, 3, 4])] [2, 3, 4, 1]) 1 1,
    -- 752: l1new -= einsum("iabc,jiba->cj", v.ovvv, x49)
    .add 42 (.ein [(9, [0, 1, 2, 3]), (105, [4, 0, 2, 1])] [3, 4]) (-1) 1,
    -- 753: del x49
    .del 105,
    -- 754: l1new -= einsum("ijab,jkia->bk", v.oovv, x48)
    .add 42 (.ein [(13, [0, 1, 2, 3]), (104, [1, 4, 0, 2])] [3, 4]) (-1) 1,
    -- 755: del x48
    .del 104,
    -- 756: x120 = np.zeros((nocc, nocc, nvir, nvir), dtype=types[float])
    .zeros 106 [0, 0, 1, 1],
    -- 757: x120 += einsum("ijka,jlib->lkba", v.ooov, x34)
    .add 106 (.ein [(12, [0, 1, 2, 3]), (93, [1, 4, 0, 5])] [4, 2, 5, 3]) 1 1,
    -- 758: x142 += einsum("ijab->ijab", x120)
    .add 103 (.ein [(106, [0, 1, 2, 3])] [0, 1, 2, 3]) 1 1,
    -- 759: del x120
    .del 106,
    -- 760: x121 = np.zeros((nocc, nocc, nvir, nvir), dtype=types[float])
    .zeros 107 [0, 0, 1, 1],
    -- 761: x121 += einsum("iabc,jkib->kjac", v.ovvv, x34)
    .add 107 (.ein [(9, [0, 1, 2, 3]), (93, [4, 5, 0, 2])] [5, 4, 1, 3]) 1 1,
    -- 762: x142 -= einsum("ijab->ijab", x121)
    .add 103 (.ein [(107, [0, 1, 2, 3])] [0, 1, 2, 3]) (-1) 1,
    -- 763: del x121
    .del 107,
    -- 764: x122 = np.zeros((nocc, nocc, nvir, nvir), dtype=types[float])
    .zeros 108 [0, 0, 1, 1],
    -- 765: x122 += einsum("ijka,lijb->lkba", x11, x34)
    .add 108 (.ein [(60, [0, 1, 2, 3]), (93, [4, 0, 1, 5])] [4, 2, 5, 3]) 1 1,
    -- 766: x142 += einsum("ijab->ijab", x122)
    .add 103 (.ein [(108, [0, 1, 2, 3])] [0, 1, 2, 3]) 1 1,
    -- 767: del x122
    .del 108,
    -- 768: x147 = np.zeros((nocc, nocc, nvir, nvir), dtype=types[float])
    .zeros 109 [0, 0, 1, 1],
    -- 769: x147 += einsum("ijka,jlkb->liba", v.ooov, x34)
    .add 109 (.ein [(12, [0, 1, 2, 3]), (93, [1, 4, 2, 5])] [4, 0, 5, 3]) 1 1,
    -- 770: x158 -= einsum("ijab->ijab", x147)
    .add 70 (.ein [(109, [0, 1, 2, 3])] [0, 1, 2, 3]) (-1) 1,
    -- 771: del x147
    .del 109,
    -- 772: x148 = np.zeros((nocc, nocc, nvir, nvir), dtype=types[float])
    .zeros 110 [0, 0, 1, 1],
    -- 773: x148 += einsum("ijka,iljb->lkba", x11, x34)
    .add 110 (.ein [(60, [0, 1, 2, 3]), (93, [0, 4, 1, 5])] [4, 2, 5, 3]) 1 1,
    -- 774: del x11
    .del 60,
    -- 775: x158 -= einsum("ijab->ijab", x148)
    .add 70 (.ein [(110, [0, 1, 2, 3])] [0, 1, 2, 3]) (-1) 1,
    -- 776: del x148
    .del 110,
    -- 777: x39 = np.zeros((nocc, nocc, nvir, nvir), dtype=types[float])
    .zeros 111 [0, 0, 1, 1],
    -- 778: x39 += einsum("ijab->jiba", t2)
    .add 111 (.ein [(8, [0, 1, 2, 3])] [1, 0, 3, 2]) 1 1,
    -- 779: x39 += einsum("ijab->jiab", t2) * -0.5
    .add 111 (.ein [(8, [0, 1, 2, 3])] [1, 0, 2, 3]) (-1) 2,
    -- 780: x40 = np.zeros((nocc, nocc), dtype=types[float])
    .zeros 112 [0, 0],
    -- 781: x40 += einsum("abij,ikab->jk", l2, x39)
    .add 112 (.ein [(11, [0, 1, 2, 3]), (111, [2, 4, 0, 1])] [3, 4]) 1 1,
    -- 782: x41 += einsum("ia,jk->jkia", t1, x40) * 2
    .add 92 (.ein [(5, [0, 1]), (112, [2, 3])] [2, 3, 0, 1]) 2 1,
    -- 783: l1new += einsum("iajb,kjib->ak", v.ovov, x41)
    .add 42 (.ein [(10, [0, 1, 2, 3]), (92, [4, 2, 0, 3])] [1, 4]) 1 1,
    -- 784: del x41
    .del 92,
    -- 785: x87 += einsum("ij->ij", x40)
    .add 32 (.ein [(112, [0, 1])] [0, 1]) 1 1,
    -- 786: x167 = np.zeros((nocc, nocc, nvir, nvir), dtype=types[float])
    .zeros 113 [0, 0, 1, 1],
    -- 787: x167 += einsum("ij,jakb->kiab", x40, v.ovov) * 2
    .add 113 (.ein [(112, [0, 1]), (10, [1, 2, 3, 4])] [3, 0, 2, 4]) 2 1,
    -- 788: x168 = np.zeros((nocc, nocc, nvir, nvir), dtype=types[float])
    .zeros 114 [0, 0, 1, 1],
    -- 789: x168 += einsum("ijab->jiba", x167)
    .add 114 (.ein [(113, [0, 1, 2, 3])] [1, 0, 3, 2]) 1 1,
    -- 790: del x167
    .del 113,
    -- 791: x171 = np.zeros((nocc, nocc), dtype=types[float])
    .zeros 115 [0, 0],
    -- 792: x171 += einsum("ij->ij", x40)
    .add 115 (.ein [(112, [0, 1])] [0, 1]) 1 1,
    -- 793: l1new += einsum("ia,ji->aj", f.ov, x40) * -2
    .add 42 (.ein [(7, [0, 1]), (112, [2, 0])] [1, 2]) (-2) 1,
    -- 794: del x40
    .del 112,
    -- 795: x44 = np.zeros((nocc, nocc), dtype=types[float])
    .zeros 116 [0, 0],
    -- 796: x44 += einsum("abij,ikab->jk", l2, x39) * 2
    .add 116 (.ein [(11, [0, 1, 2, 3]), (111, [2, 4, 0, 1])] [3, 4]) 2 1,
    -- 797: x45 += einsum("ia,jk->jkia", t1, x44) * -1
    .add 98 (.ein [(5, [0, 1]), (116, [2, 3])] [2, 3, 0, 1]) (-1) 1,
    -- 798: x95 += einsum("ij->ij", x44)
    .add 33 (.ein [(116, [0, 1])] [0, 1]) 1 1,
    -- 799: x110 = np.zeros((nocc, nocc), dtype=types[float])
    .zeros 117 [0, 0],
    -- 800: x110 += einsum("ij->ij", x44)
    .add 117 (.ein [(116, [0, 1])] [0, 1]) 1 1,
    -- 801: del x44
    .del 116,
    -- 802: x83 = np.zeros((nocc, nvir), dtype=types[float])
    .zeros 118 [0, 1],
    -- 803: x83 += einsum("ijka,jiba->kb", x34, x39)
    .add 118 (.ein [(93, [0, 1, 2, 3]), (111, [1, 0, 4, 3])] [2, 4]) 1 1,
    -- 804: x89 = np.zeros((nocc, nvir), dtype=types[float])
    .zeros 119 [0, 1],
    -- 805: x89 += einsum("ia->ia", x83)
    .add 119 (.ein [(118, [0, 1])] [0, 1]) 1 1,
    -- 806: del x83
    .del 118,
    -- 807: x42 = np.zeros((nocc, nocc, nocc, nocc), dtype=types[float])
    .zeros 120 [0, 0, 0, 0],
    -- 808: x42 += einsum("abij,klab->ijkl", l2, t2)
    .add 120 (.ein [(11, [0, 1, 2, 3]), (8, [4, 5, 0, 1])] [2, 3, 4, 5]) 1 1,
    -- 809: x43 = np.zeros((nocc, nocc, nocc, nvir), dtype=types[float])
    .zeros 121 [0, 0, 0, 1],
    -- 810: x43 += einsum("ia,jikl->jkla", t1, x42)
    .add 121 (.ein [(5, [0, 1]), (120, [2, 0, 3, 4])] [2, 3, 4, 1]) 1 1,
    -- 811: x45 += einsum("ijka->ijka", x43)
    .add 98 (.ein [(121, [0, 1, 2, 3])] [0, 1, 2, 3]) 1 1,
    -- 812: x45 += einsum("ijka->ikja", x43) * -0.5
    .add 98 (.ein [(121, [0, 1, 2, 3])] [0, 2, 1, 3]) (-1) 2,
    -- 813: del x43
    .del 121,
    -- 814: l1new += einsum("iajb,kjia->bk", v.ovov, x45) * 2
    .add 42 (.ein [(10, [0, 1, 2, 3]), (98, [4, 2, 0, 1])] [3, 4]) 2 1,
    -- 815: del x45
    .del 98,
    -- 816: x53 = np.zeros((nocc, nocc, nocc, nocc), dtype=types[float])
    .zeros 122 [0, 0, 0, 0],
    -- 817: x53 += einsum("ijkl->jilk", x42)
    .add 122 (.ein [(120, [0, 1, 2, 3])] [1, 0, 3, 2]) 1 1,
    -- 818: x53 += einsum("ijkl->jikl", x42) * -0.5
    .add 122 (.ein [(120, [0, 1, 2, 3])] [1, 0, 2, 3]) (-1) 2,
    -- 819: l1new += einsum("ijka,jlik->al", v.ooov, x53) * 2
    .add 42 (.ein [(12, [0, 1, 2, 3]), (122, [1, 4, 0, 2])] [3, 4]) 2 1,
    -- 820: del x53
    .del 122,
    -- 821: l2new += einsum("iajb,klji->ablk", v.ovov, x42)
    .add 66 (.ein [(10, [0, 1, 2, 3]), (120, [4, 5, 2, 0])] [1, 3, 5, 4]) 1 1,
    -- 822: del x42
    .del 120,
    -- 823: x50 = np.zeros((nocc, nocc, nvir, nvir), dtype=types[float])
    .zeros 123 [0, 0, 1, 1],
    -- 824: x50 += einsum("abij,kibc->jkac", l2, t2)
    .add 123 (.ein [(11, [0, 1, 2, 3]), (8, [4, 2, 1, 5])] [3, 4, 0, 5]) 1 1,
    -- 825: x51 = np.zeros((nocc, nvir, nvir, nvir), dtype=types[float])
    .zeros 124 [0, 1, 1, 1],
    -- 826: x51 += einsum("iabc->ibac", v.ovvv) * 2
    .add 124 (.ein [(9, [0, 1, 2, 3])] [0, 2, 1, 3]) 2 1,
    -- 827: x51 -= einsum("iabc->ibca", v.ovvv)
    .add 124 (.ein [(9, [0, 1, 2, 3])] [0, 2, 3, 1]) (-1) 1,
    -- 828: x103 = np.zeros((nbos, nvir, nvir), dtype=types[float])
    .zeros 125 [2, 1, 1],
    -- 829: x103 += einsum("wia,ibac->wbc", u11, x51)
    .add 125 (.ein [(20, [0, 1, 2]), (124, [1, 3, 2, 4])] [0, 3, 4]) 1 1,
    -- 830: x112 = np.zeros((nvir, nvir), dtype=types[float])
    .zeros 126 [1, 1],
    -- 831: x112 += einsum("ia,ibac->bc", t1, x51)
    .add 126 (.ein [(5, [0, 1]), (124, [0, 2, 1, 3])] [2, 3]) 1 1,
    -- 832: x113 = np.zeros((nvir, nvir), dtype=types[float])
    .zeros 127 [1, 1],
    -- 833: x113 += einsum("ab->ab", x112)
    .add 127 (.ein [(126, [0, 1])] [0, 1]) 1 1,
    -- 834: x137 = np.zeros((nocc, nocc, nvir, nvir), dtype=types[float])
    .zeros 128 [0, 0, 1, 1],
    -- 835: x137 += einsum("ab,acij->ijcb", x112, l2)
    .add 128 (.ein [(126, [0, 1]), (11, [0, 2, 3, 4])] [3, 4, 2, 1]) 1 1,
    -- 836: del x112
    .del 126,
    -- 837: x142 += einsum("ijab->jiab", x137)
    .add 103 (.ein [(128, [0, 1, 2, 3])] [1, 0, 2, 3]) 1 1,
    -- 838: del x137
    .del 128,
    -- 839: l1new -= einsum("ijab,jacb->ci", x50, x51)
    .add 42 (.ein [(123, [0, 1, 2, 3]), (124, [1, 2, 4, 3])] [4, 0]) (-1) 1,
    -- 840: del x50
    .del 123,
    -- 841: x54 = np.zeros((nocc, nvir), dtype=types[float])
    .zeros 129 [0, 1],
    -- 842: x54 += einsum("w,wai->ia", s1, g.bvo)
    .add 129 (.ein [(6, [0]), (1, [0, 1, 2])] [2, 1]) 1 1,
    -- 843: x78 = np.zeros((nocc, nvir), dtype=types[float])
    .zeros 130 [0, 1],
    -- 844: x78 += einsum("ia->ia", x54) * 0.5
    .add 130 (.ein [(129, [0, 1])] [0, 1]) 1 2,
    -- 845: x170 = np.zeros((nocc, nvir), dtype=types[float])
    .zeros 131 [0, 1],
    -- 846: x170 += einsum("ia->ia", x54)
    .add 131 (.ein [(129, [0, 1])] [0, 1]) 1 1,
    -- 847: del x54
    .del 129,
    -- 848: x55 = np.zeros((nocc, nvir), dtype=types[float])
    .zeros 132 [0, 1],
    -- 849: x55 += einsum("wab,wib->ia", g.bvv, u11)
    .add 132 (.ein [(3, [0, 1, 2]), (20, [0, 3, 2])] [3, 1]) 1 1,
    -- 850: x78 += einsum("ia->ia", x55) * 0.5
    .add 130 (.ein [(132, [0, 1])] [0, 1]) 1 2,
    -- 851: x170 += einsum("ia->ia", x55)
    .add 131 (.ein [(132, [0, 1])] [0, 1]) 1 1,
    -- 852: del x55
    .del 132,
    -- 853: x56 = np.zeros((nocc, nvir), dtype=types[float])
    .zeros 133 [0, 1],
    -- 854: x56 += einsum("ijab,jkib->ka", t2, v.ooov)
    .add 133 (.ein [(8, [0, 1, 2, 3]), (12, [1, 4, 0, 3])] [4, 2]) 1 1,
    -- 855: x78 += einsum("ia->ia", x56) * 0.5
    .add 130 (.ein [(133, [0, 1])] [0, 1]) 1 2,
    -- 856: x170 += einsum("ia->ia", x56)
    .add 131 (.ein [(133, [0, 1])] [0, 1]) 1 1,
    -- 857: del x56
    .del 133,
    -- 858: x57 = np.zeros((nocc, nocc, nvir, nvir), dtype=types[float])
    .zeros 134 [0, 0, 1, 1],
    -- 859: x57 += einsum("ijab->jiba", t2) * -0.5
    .add 134 (.ein [(8, [0, 1, 2, 3])] [1, 0, 3, 2]) (-1) 2,
    -- 860: x57 += einsum("ijab->jiab", t2)
    .add 134 (.ein [(8, [0, 1, 2, 3])] [1, 0, 2, 3]) 1 1,
    -- 861: x78 += einsum("iabc,ijca->jb", v.ovvv, x57)
    .add 130 (.ein [(9, [0, 1, 2, 3]), (134, [0, 4, 3, 1])] [4, 2]) 1 1,
    -- 862: x93 = np.zeros((nvir, nvir), dtype=types[float])
    .zeros 135 [1, 1],
    -- 863: x93 += einsum("abij,ijbc->ac", l2, x57) * 2
    .add 135 (.ein [(11, [0, 1, 2, 3]), (134, [2, 3, 1, 4])] [0, 4]) 2 1,
    -- 864: x94 = np.zeros((nvir, nvir), dtype=types[float])
    .zeros 136 [1, 1],
    -- 865: x94 += einsum("ab->ab", x93)
    .add 136 (.ein [(135, [0, 1])] [0, 1]) 1 1,
    -- 866: x178 = np.zeros((nvir, nvir), dtype=types[float])
    .zeros 137 [1, 1],
    -- 867: x178 += einsum("ab->ab", x93)
    .add 137 (.ein [(135, [0, 1])] [0, 1]) 1 1,
    -- 868: del x93
    .del 135,
    -- 869: x165 = np.zeros((nvir, nvir), dtype=types[float])
    .zeros 138 [1, 1],
    -- 870: x165 += einsum("abij,ijbc->ac", l2, x57)
    .add 138 (.ein [(11, [0, 1, 2, 3]), (134, [2, 3, 1, 4])] [0, 4]) 1 1,
    -- 871: x166 = np.zeros((nocc, nocc, nvir, nvir), dtype=types[float])
    .zeros 139 [0, 0, 1, 1],
    -- 872: x166 += einsum("ab,ibjc->ijca", x165, v.ovov) * 2
    .add 139 (.ein [(138, [0, 1]), (10, [2, 1, 3, 4])] [2, 3, 4, 0]) 2 1,
    -- 873: del x165
    .del 138,
    -- 874: x168 += einsum("ijab->jiba", x166)
    .add 114 (.ein [(139, [0, 1, 2, 3])] [1, 0, 3, 2]) 1 1,
    -- 875: del x166
    .del 139,
    -- 876: l2new += einsum("ijab->baij", x168) * -1
    .add 66 (.ein [(114, [0, 1, 2, 3])] [3, 2, 0, 1]) (-1) 1,
    -- 877: l2new += einsum("ijab->abji", x168) * -1
    .add 66 (.ein [(114, [0, 1, 2, 3])] [2, 3, 1, 0]) (-1) 1,
    -- 878: del x168
    .del 114,
    -- 879: x170 += einsum("iabc,ijca->jb", v.ovvv, x57) * 2
    .add 131 (.ein [(9, [0, 1, 2, 3]), (134, [0, 4, 3, 1])] [4, 2]) 2 1,
    -- 880: del x57
    .del 134,
    -- 881: x58 += einsum("ijka->ikja", v.ooov) * 2
    .add 68 (.ein [(12, [0, 1, 2, 3])] [0, 2, 1, 3]) 2 1,
    -- 882: x78 += einsum("ijab,jika->kb", t2, x58) * -0.5
    .add 130 (.ein [(8, [0, 1, 2, 3]), (68, [1, 0, 4, 2])] [4, 3]) (-1) 2,
    -- 883: x170 += einsum("ijab,jika->kb", t2, x58) * -1
    .add 131 (.ein [(8, [0, 1, 2, 3]), (68, [1, 0, 4, 2])] [4, 3]) (-1) 1,
    -- 884: del x58
    .del 68,
    -- 885: x60 += einsum("ia->ia", f.ov)
    .add 38 (.ein [(7, [0, 1])] [0, 1]) 1 1,
    -- 886: x78 += einsum("ia,ijab->jb", x60, x39)
    .add 130 (.ein [(38, [0, 1]), (111, [0, 2, 1, 3])] [2, 3]) 1 1,
    -- 887: x170 += einsum("ia,ijab->jb", x60, x39) * 2
    .add 131 (.ein [(38, [0, 1]), (111, [0, 2, 1, 3])] [2, 3]) 2 1,
    -- 888: del x60
    .del 38,
    -- 889: del x39
    .del 111,
    -- 890: x61 = np.zeros((nocc, nocc, nvir, nvir), dtype=types[float])
    .zeros 140 [0, 0, 1, 1],
    -- 891: x61 += einsum("iabj->ijba", v.ovvo)
    .add 140 (.ein [(14, [0, 1, 2, 3])] [0, 3, 2, 1]) 1 1,
    -- 892: x61 += einsum("ijab->ijab", v.oovv) * -0.5
    .add 140 (.ein [(13, [0, 1, 2, 3])] [0, 1, 2, 3]) (-1) 2,
    -- 893: x78 += einsum("ia,ijba->jb", t1, x61)
    .add 130 (.ein [(5, [0, 1]), (140, [0, 2, 3, 1])] [2, 3]) 1 1,
    -- 894: x170 += einsum("ia,ijba->jb", t1, x61) * 2
    .add 131 (.ein [(5, [0, 1]), (140, [0, 2, 3, 1])] [2, 3]) 2 1,
    -- 895: del x61
    .del 140,
    -- 896: x62 = np.zeros((nbos, nocc, nocc), dtype=types[float])
    .zeros 141 [2, 0, 0],
    -- 897: x62 += einsum("ia,wja->wji", t1, g.bov)
    .add 141 (.ein [(5, [0, 1]), (2, [2, 3, 1])] [2, 3, 0]) 1 1,
    -- 898: x63 = np.zeros((nbos, nocc, nocc), dtype=types[float])
    .zeros 142 [2, 0, 0],
    -- 899: x63 += einsum("wij->wij", x62)
    .add 142 (.ein [(141, [0, 1, 2])] [0, 1, 2]) 1 1,
    -- 900: x104 = np.zeros((nbos, nocc, nocc), dtype=types[float])
    .zeros 143 [2, 0, 0],
    -- 901: x104 += einsum("wij->wij", x62)
    .add 143 (.ein [(141, [0, 1, 2])] [0, 1, 2]) 1 1,
    -- 902: del x62
    .del 141,
    -- 903: x63 += einsum("wij->wij", g.boo)
    .add 142 (.ein [(0, [0, 1, 2])] [0, 1, 2]) 1 1,
    -- 904: x78 += einsum("wia,wij->ja", u11, x63) * -0.5
    .add 130 (.ein [(20, [0, 1, 2]), (142, [0, 1, 3])] [3, 2]) (-1) 2,
    -- 905: x170 += einsum("wia,wij->ja", u11, x63) * -1
    .add 131 (.ein [(20, [0, 1, 2]), (142, [0, 1, 3])] [3, 2]) (-1) 1,
    -- 906: del x63
    .del 142,
    -- 907: x64 = np.zeros((nocc, nocc), dtype=types[float])
    .zeros 144 [0, 0],
    -- 908: x64 += einsum("w,wij->ij", s1, g.boo)
    .add 144 (.ein [(6, [0]), (0, [0, 1, 2])] [1, 2]) 1 1,
    -- 909: x71 += einsum("ij->ij", x64)
    .add 56 (.ein [(144, [0, 1])] [0, 1]) 1 1,
    -- 910: x154 = np.zeros((nocc, nocc), dtype=types[float])
    .zeros 145 [0, 0],
    -- 911: x154 += einsum("ij->ij", x64)
    .add 145 (.ein [(144, [0, 1])] [0, 1]) 1 1,
    -- 912: del x64
    .del 144,
    -- 913: x65 = np.zeros((nocc, nocc), dtype=types[float])
    .zeros 146 [0, 0],
    -- 914: x65 += einsum("wia,wja->ij", g.bov, u11)
    .add 146 (.ein [(2, [0, 1, 2]), (20, [0, 3, 2])] [1, 3]) 1 1,
    -- 915: x71 += einsum("ij->ij", x65)
    .add 56 (.ein [(146, [0, 1])] [0, 1]) 1 1,
    -- 916: x154 += einsum("ij->ij", x65)
    .add 145 (.ein [(146, [0, 1])] [0, 1]) 1 1,
    -- 917: del x65
    .del 146,
    -- 918: x67 = np.zeros((nocc, nocc, nocc, nvir), dtype=types[float])
    .zeros 147 [0, 0, 0, 1],
    -- 919: x67 += einsum("ijka->ikja", v.ooov) * -0.5
    .add 147 (.ein [(12, [0, 1, 2, 3])] [0, 2, 1, 3]) (-1) 2,
    -- 920: x67 += einsum("ijka->kija", v.ooov)
    .add 147 (.ein [(12, [0, 1, 2, 3])] [2, 0, 1, 3]) 1 1,
    -- 921: x68 = np.zeros((nocc, nocc), dtype=types[float])
    .zeros 148 [0, 0],
    -- 922: x68 += einsum("ia,ijka->jk", t1, x67) * 2
    .add 148 (.ein [(5, [0, 1]), (147, [0, 2, 3, 1])] [2, 3]) 2 1,
    -- 923: del x67
    .del 147,
    -- 924: x71 += einsum("ij->ij", x68)
    .add 56 (.ein [(148, [0, 1])] [0, 1]) 1 1,
    -- 925: del x68
    .del 148,
    -- 926: x69 += einsum("ia->ia", f.ov) * 0.5
    .add 39 (.ein [(7, [0, 1])] [0, 1]) 1 2,
    -- 927: x70 = np.zeros((nocc, nocc), dtype=types[float])
    .zeros 149 [0, 0],
    -- 928: x70 += einsum("ia,ja->ij", t1, x69) * 2
    .add 149 (.ein [(5, [0, 1]), (39, [2, 1])] [0, 2]) 2 1,
    -- 929: x71 += einsum("ij->ji", x70)
    .add 56 (.ein [(149, [0, 1])] [1, 0]) 1 1,
    -- 930: del x70
    .del 149,
    -- 931: lu11new = np.zeros((nbos, nvir, nocc), dtype=types[float])
    .zeros 150 [2, 1, 0],
    -- 932: lu11new += einsum("w,ia->wai", ls1, x69) * 4
    .add 150 (.ein [(21, [0]), (39, [1, 2])] [0, 2, 1]) 4 1,
    -- 933: del x69
    .del 39,
    -- 934: x71 += einsum("ij->ij", f.oo)
    .add 56 (.ein [(22, [0, 1])] [0, 1]) 1 1,
    -- 935: x78 += einsum("ia,ij->ja", t1, x71) * -0.5
    .add 130 (.ein [(5, [0, 1]), (56, [0, 2])] [2, 1]) (-1) 2,
    -- 936: x170 += einsum("ia,ij->ja", t1, x71) * -1
    .add 131 (.ein [(5, [0, 1]), (56, [0, 2])] [2, 1]) (-1) 1,
    -- 937: l1new += einsum("ai,ji->aj", l1, x71) * -1
    .add 42 (.ein [(4, [0, 1]), (56, [2, 1])] [0, 2]) (-1) 1,
    -- 938: lu11new += einsum("ij,waj->wai", x71, lu11) * -1
    .add 150 (.ein [(56, [0, 1]), (17, [2, 3, 1])] [2, 3, 0]) (-1) 1,
    -- 939: del x71
    .del 56,
    -- 940: x72 = np.zeros((nvir, nvir), dtype=types[float])
    .zeros 151 [1, 1],
    -- 941: x72 += einsum("w,wab->ab", s1, g.bvv)
    .add 151 (.ein [(6, [0]), (3, [0, 1, 2])] [1, 2]) 1 1,
    -- 942: x75 = np.zeros((nvir, nvir), dtype=types[float])
    .zeros 152 [1, 1],
    -- 943: x75 += einsum("ab->ab", x72)
    .add 152 (.ein [(151, [0, 1])] [0, 1]) 1 1,
    -- 944: x113 += einsum("ab->ab", x72)
    .add 127 (.ein [(151, [0, 1])] [0, 1]) 1 1,
    -- 945: x151 = np.zeros((nvir, nvir), dtype=types[float])
    .zeros 153 [1, 1],
    -- 946: x151 += einsum("ab->ab", x72)
    .add 153 (.ein [(151, [0, 1])] [0, 1]) 1 1,
    -- 947: x177 += einsum("ab->ab", x72)
    .add 54 (.ein [(151, [0, 1])] [0, 1]) 1 1,
    -- 948: del x72
    .del 151,
    -- 949: x73 = np.zeros((nocc, nvir, nvir, nvir), dtype=types[float])
    .zeros 154 [0, 1, 1, 1],
    -- 950: x73 += einsum("iabc->ibac", v.ovvv)
    .add 154 (.ein [(9, [0, 1, 2, 3])] [0, 2, 1, 3]) 1 1,
    -- 951: x73 += einsum("iabc->ibca", v.ovvv) * -0.5
    .add 154 (.ein [(9, [0, 1, 2, 3])] [0, 2, 3, 1]) (-1) 2,
    -- 952: x74 = np.zeros((nvir, nvir), dtype=types[float])
    .zeros 155 [1, 1],
    -- 953: x74 += einsum("ia,ibac->bc", t1, x73) * 2
    .add 155 (.ein [(5, [0, 1]), (154, [0, 2, 1, 3])] [2, 3]) 2 1,
    -- 954: del x73
    .del 154,
    -- 955: x75 += einsum("ab->ab", x74)
    .add 152 (.ein [(155, [0, 1])] [0, 1]) 1 1,
    -- 956: x177 += einsum("ab->ab", x74)
    .add 54 (.ein [(155, [0, 1])] [0, 1]) 1 1,
    -- 957: del x74
    .del 155,
    -- 958: x75 += einsum("ab->ab", f.vv)
    .add 152 (.ein [(23, [0, 1])] [0, 1]) 1 1,
    -- 959: x78 += einsum("ia,ba->ib", t1, x75) * 0.5
    .add 130 (.ein [(5, [0, 1]), (152, [2, 1])] [0, 2]) 1 2,
    -- 960: x170 += einsum("ia,ba->ib", t1, x75)
    .add 131 (.ein [(5, [0, 1]), (152, [2, 1])] [0, 2]) 1 1,
    -- 961: del x75
    .del 152,
    -- 962: x76 = np.zeros((nbos), dtype=types[float])
    .zeros 156 [2],
    -- 963: x76 += einsum("ia,wia->w", t1, g.bov)
    .add 156 (.ein [(5, [0, 1]), (2, [2, 0, 1])] [2]) 1 1,
    -- 964: x77 = np.zeros((nbos), dtype=types[float])
    .zeros 157 [2],
    -- 965: x77 += einsum("w->w", x76) * 2
    .add 157 (.ein [(156, [0])] [0]) 2 1,
    -- 966: del x76
    .del 156,
    -- 967: x77 += einsum("w->w", G)
    .add 157 (.ein [(24, [0])] [0]) 1 1,
    -- 968: x78 += einsum("w,wia->ia", x77, u11) * 0.5
    .add 130 (.ein [(157, [0]), (20, [0, 1, 2])] [1, 2]) 1 2,
    -- 969: x170 += einsum("w,wia->ia", x77, u11)
    .add 131 (.ein [(157, [0]), (20, [0, 1, 2])] [1, 2]) 1 1,
    -- 970: del x77
    .del 157,
    -- 971: x78 += einsum("ai->ia", f.vo) * 0.5
    .add 130 (.ein [(25, [0, 1])] [1, 0]) 1 2,
    -- 972: x79 = np.zeros((nocc, nocc, nvir, nvir), dtype=types[float])
    .zeros 158 [0, 0, 1, 1],
    -- 973: x79 += einsum("abij->jiba", l2) * 2
    .add 158 (.ein [(11, [0, 1, 2, 3])] [3, 2, 1, 0]) 2 1,
    -- 974: x79 += einsum("abij->jiab", l2) * -1
    .add 158 (.ein [(11, [0, 1, 2, 3])] [3, 2, 0, 1]) (-1) 1,
    -- 975: l1new += einsum("ia,ijab->bj", x78, x79) * 2
    .add 42 (.ein [(130, [0, 1]), (158, [0, 2, 1, 3])] [3, 2]) 2 1,
    -- 976: del x78
    .del 130,
    -- 977: del x79
    .del 158,
    -- 978: x80 = np.zeros((nocc, nvir), dtype=types[float])
    .zeros 159 [0, 1],
    -- 979: x80 += einsum("w,wia->ia", ls1, u11)
    .add 159 (.ein [(21, [0]), (20, [0, 1, 2])] [1, 2]) 1 1,
    -- 980: x89 += einsum("ia->ia", x80) * -0.5
    .add 119 (.ein [(159, [0, 1])] [0, 1]) (-1) 2,
    -- 981: del x80
    .del 159,
    -- 982: x81 = np.zeros((nbos, nocc, nocc), dtype=types[float])
    .zeros 160 [2, 0, 0],
    -- 983: x81 += einsum("ia,waj->wji", t1, lu11)
    .add 160 (.ein [(5, [0, 1]), (17, [2, 1, 3])] [2, 3, 0]) 1 1,
    -- 984: x82 = np.zeros((nocc, nvir), dtype=types[float])
    .zeros 161 [0, 1],
    -- 985: x82 += einsum("wia,wij->ja", u11, x81)
    .add 161 (.ein [(20, [0, 1, 2]), (160, [0, 1, 3])] [3, 2]) 1 1,
    -- 986: x89 += einsum("ia->ia", x82) * 0.5
    .add 119 (.ein [(161, [0, 1])] [0, 1]) 1 2,
    -- 987: del x82
    .del 161,
    -- 988: x174 += einsum("ia,wij->wja", t1, x81)
    .add 87 (.ein [(5, [0, 1]), (160, [2, 0, 3])] [2, 3, 1]) 1 1,
    -- 989: x84 = np.zeros((nocc, nocc, nvir, nvir), dtype=types[float])
    .zeros 162 [0, 0, 1, 1],
    -- 990: x84 += einsum("ijab->jiba", t2) * 2
    .add 162 (.ein [(8, [0, 1, 2, 3])] [1, 0, 3, 2]) 2 1,
    -- 991: x84 += einsum("ijab->jiab", t2) * -1
    .add 162 (.ein [(8, [0, 1, 2, 3])] [1, 0, 2, 3]) (-1) 1,
    -- 992: x85 = np.zeros((nocc, nvir), dtype=types[float])
    .zeros 163 [0, 1],
    -- 993: x85 += einsum("ai,ijab->jb", l1, x84) * 0.5
    .add 163 (.ein [(4, [0, 1]), (162, [1, 2, 0, 3])] [2, 3]) 1 2,
    -- 994: del x84
    .del 162,
    -- 995: x89 += einsum("ia->ia", x85) * -1
    .add 119 (.ein [(163, [0, 1])] [0, 1]) (-1) 1,
    -- 996: del x85
    .del 163,
    -- 997: x86 = np.zeros((nocc, nocc), dtype=types[float])
    .zeros 164 [0, 0],
    -- 998: x86 += einsum("wai,wja->ij", lu11, u11)
    .add 164 (.ein [(17, [0, 1, 2]), (20, [0, 3, 1])] [2, 3]) 1 1,
    -- 999: x87 += einsum("ij->ij", x86) * 0.5
    .add 32 (.ein [(164, [0, 1])] [0, 1]) 1 2,
    -- 1000: x88 = np.zeros((nocc, nvir), dtype=types[float])
    .zeros 165 [0, 1],
    -- 1001: x88 += einsum("ia,ij->ja", t1, x87)
    .add 165 (.ein [(5, [0, 1]), (32, [0, 2])] [2, 1]) 1 1,
    -- 1002: del x87
    .del 32,
    -- 1003: x89 += einsum("ia->ia", x88)
    .add 119 (.ein [(165, [0, 1])] [0, 1]) 1 1,
    -- 1004: del x88
    .del 165,
    -- 1005: x95 += einsum("ij->ij", x86)
    .add 33 (.ein [(164, [0, 1])] [0, 1]) 1 1,
    -- 1006: lu11new += einsum("ij,wja->wai", x95, g.bov) * -1
    .add 150 (.ein [(33, [0, 1]), (2, [2, 1, 3])] [2, 3, 0]) (-1) 1,
    -- 1007: x110 += einsum("ij->ij", x86)
    .add 117 (.ein [(164, [0, 1])] [0, 1]) 1 1,
    -- 1008: x111 = np.zeros((nbos, nocc, nocc), dtype=types[float])
    .zeros 166 [2, 0, 0],
    -- 1009: x111 += einsum("w,ij->wij", s1, x110) * 0.5
    .add 166 (.ein [(6, [0]), (117, [1, 2])] [0, 1, 2]) 1 2,
    -- 1010: del x110
    .del 117,
    -- 1011: x114 += einsum("ij->ij", x86)
    .add 34 (.ein [(164, [0, 1])] [0, 1]) 1 1,
    -- 1012: x156 = np.zeros((nocc, nocc, nvir, nvir), dtype=types[float])
    .zeros 167 [0, 0, 1, 1],
    -- 1013: x156 += einsum("ij,jakb->kiab", x114, v.ovov)
    .add 167 (.ein [(34, [0, 1]), (10, [1, 2, 3, 4])] [3, 0, 2, 4]) 1 1,
    -- 1014: x158 += einsum("ijab->jiba", x156)
    .add 70 (.ein [(167, [0, 1, 2, 3])] [1, 0, 3, 2]) 1 1,
    -- 1015: del x156
    .del 167,
    -- 1016: x171 += einsum("ij->ij", x86) * 0.5
    .add 115 (.ein [(164, [0, 1])] [0, 1]) 1 2,
    -- 1017: del x86
    .del 164,
    -- 1018: ls1new += einsum("ij,wji->w", x171, g.boo) * -4
    .add 35 (.ein [(115, [0, 1]), (0, [2, 1, 0])] [2]) (-4) 1,
    -- 1019: del x171
    .del 115,
    -- 1020: x89 += einsum("ia->ia", t1) * -0.5
    .add 119 (.ein [(5, [0, 1])] [0, 1]) (-1) 2,
    -- 1021: ls1new += einsum("ia,wia->w", x89, g.bov) * -4
    .add 35 (.ein [(119, [0, 1]), (2, [2, 0, 1])] [2]) (-4) 1,
    -- 1022: x90 = np.zeros((nocc, nocc, nvir, nvir), dtype=types[float])
    .zeros 168 [0, 0, 1, 1],
    -- 1023: x90 += einsum("iajb->jiba", v.ovov) * 2
    .add 168 (.ein [(10, [0, 1, 2, 3])] [2, 0, 3, 1]) 2 1,
    -- 1024: x90 -= einsum("iajb->jiab", v.ovov)
    .add 168 (.ein [(10, [0, 1, 2, 3])] [2, 0, 1, 3]) (-1) 1,
    -- 1025: x98 = np.zeros((nocc, nvir), dtype=types[float])
    .zeros 169 [0, 1],
    -- 1026: x98 += einsum("ia,ijab->jb", t1, x90)
    .add 169 (.ein [(5, [0, 1]), (168, [0, 2, 1, 3])] [2, 3]) 1 1,
    -- 1027: x99 += einsum("ia->ia", x98)
    .add 40 (.ein [(169, [0, 1])] [0, 1]) 1 1,
    -- 1028: x115 = np.zeros((nocc, nvir), dtype=types[float])
    .zeros 170 [0, 1],
    -- 1029: x115 += einsum("ia->ia", x98)
    .add 170 (.ein [(169, [0, 1])] [0, 1]) 1 1,
    -- 1030: x134 = np.zeros((nocc, nocc), dtype=types[float])
    .zeros 171 [0, 0],
    -- 1031: x134 += einsum("ia,ja->ij", t1, x98)
    .add 171 (.ein [(5, [0, 1]), (169, [2, 1])] [0, 2]) 1 1,
    -- 1032: x135 = np.zeros((nocc, nocc), dtype=types[float])
    .zeros 172 [0, 0],
    -- 1033: x135 += einsum("ij->ji", x134)
    .add 172 (.ein [(171, [0, 1])] [1, 0]) 1 1,
    -- 1034: del x134
    .del 171,
    -- 1035: x138 = np.zeros((nocc, nocc, nvir, nvir), dtype=types[float])
    .zeros 173 [0, 0, 1, 1],
    -- 1036: x138 += einsum("ia,jkib->jkba", x98, x34)
    .add 173 (.ein [(169, [0, 1]), (93, [2, 3, 0, 4])] [2, 3, 4, 1]) 1 1,
    -- 1037: x142 -= einsum("ijab->ijab", x138)
    .add 103 (.ein [(173, [0, 1, 2, 3])] [0, 1, 2, 3]) (-1) 1,
    -- 1038: del x138
    .del 173,
    -- 1039: x142 += einsum("ai,jb->ijab", l1, x98)
    .add 103 (.ein [(4, [0, 1]), (169, [2, 3])] [1, 2, 0, 3]) 1 1,
    -- 1040: del x98
    .del 169,
    -- 1041: x100 = np.zeros((nbos, nocc, nvir), dtype=types[float])
    .zeros 174 [2, 0, 1],
    -- 1042: x100 += einsum("wia,ijab->wjb", u11, x90)
    .add 174 (.ein [(20, [0, 1, 2]), (168, [1, 3, 2, 4])] [0, 3, 4]) 1 1,
    -- 1043: x101 = np.zeros((nbos, nocc, nvir), dtype=types[float])
    .zeros 175 [2, 0, 1],
    -- 1044: x101 += einsum("wia->wia", x100)
    .add 175 (.ein [(174, [0, 1, 2])] [0, 1, 2]) 1 1,
    -- 1045: x139 = np.zeros((nocc, nocc, nvir, nvir), dtype=types[float])
    .zeros 176 [0, 0, 1, 1],
    -- 1046: x139 += einsum("wai,wjb->ijab", lu11, x100)
    .add 176 (.ein [(17, [0, 1, 2]), (174, [0, 3, 4])] [2, 3, 1, 4]) 1 1,
    -- 1047: del x100
    .del 174,
    -- 1048: x142 += einsum("ijab->ijab", x139)
    .add 103 (.ein [(176, [0, 1, 2, 3])] [0, 1, 2, 3]) 1 1,
    -- 1049: del x139
    .del 176,
    -- 1050: l1new += einsum("ia,ijab->bj", x89, x90) * -2
    .add 42 (.ein [(119, [0, 1]), (168, [0, 2, 1, 3])] [3, 2]) (-2) 1,
    -- 1051: del x89
    .del 119,
    -- 1052: lu11new -= einsum("wia,ijab->wbj", x174, x90)
    .add 150 (.ein [(87, [0, 1, 2]), (168, [1, 3, 2, 4])] [0, 4, 3]) (-1) 1,
    -- 1053: del x90
    .del 168,
    -- 1054: del x174
    .del 87,
    -- 1055: x91 = np.zeros((nvir, nvir), dtype=types[float])
    .zeros 177 [1, 1],
    -- 1056: x91 += einsum("ai,ib->ab", l1, t1)
    .add 177 (.ein [(4, [0, 1]), (5, [1, 2])] [0, 2]) 1 1,
    -- 1057: x94 += einsum("ab->ab", x91)
    .add 136 (.ein [(177, [0, 1])] [0, 1]) 1 1,
    -- 1058: del x91
    .del 177,
    -- 1059: x92 = np.zeros((nvir, nvir), dtype=types[float])
    .zeros 178 [1, 1],
    -- 1060: x92 += einsum("wai,wib->ab", lu11, u11)
    .add 178 (.ein [(17, [0, 1, 2]), (20, [0, 2, 3])] [1, 3]) 1 1,
    -- 1061: x94 += einsum("ab->ab", x92)
    .add 136 (.ein [(178, [0, 1])] [0, 1]) 1 1,
    -- 1062: l1new += einsum("ab,iacb->ci", x94, x51)
    .add 42 (.ein [(136, [0, 1]), (124, [2, 0, 3, 1])] [3, 2]) 1 1,
    -- 1063: ls1new += einsum("ab,wab->w", x94, g.bvv) * 2
    .add 35 (.ein [(136, [0, 1]), (3, [2, 0, 1])] [2]) 2 1,
    -- 1064: del x94
    .del 136,
    -- 1065: x145 = np.zeros((nocc, nocc, nvir, nvir), dtype=types[float])
    .zeros 179 [0, 0, 1, 1],
    -- 1066: x145 += einsum("ab,ibjc->jiac", x92, v.ovov)
    .add 179 (.ein [(178, [0, 1]), (10, [2, 1, 3, 4])] [3, 2, 0, 4]) 1 1,
    -- 1067: x158 += einsum("ijab->ijab", x145)
    .add 70 (.ein [(179, [0, 1, 2, 3])] [0, 1, 2, 3]) 1 1,
    -- 1068: del x145
    .del 179,
    -- 1069: x178 += einsum("ab->ab", x92)
    .add 137 (.ein [(178, [0, 1])] [0, 1]) 1 1,
    -- 1070: del x92
    .del 178,
    -- 1071: lu11new += einsum("ab,wib->wai", x178, g.bov) * -1
    .add 150 (.ein [(137, [0, 1]), (2, [2, 3, 1])] [2, 0, 3]) (-1) 1,
    -- 1072: del x178
    .del 137,
    -- 1073: x96 = np.zeros((nocc, nocc, nocc, nvir), dtype=types[float])
    .zeros 180 [0, 0, 0, 1],
    -- 1074: x96 += einsum("ijka->ikja", v.ooov) * 2
    .add 180 (.ein [(12, [0, 1, 2, 3])] [0, 2, 1, 3]) 2 1,
    -- 1075: x96 -= einsum("ijka->kija", v.ooov)
    .add 180 (.ein [(12, [0, 1, 2, 3])] [2, 0, 1, 3]) (-1) 1,
    -- 1076: l1new += einsum("ij,jkia->ak", x95, x96) * -1
    .add 42 (.ein [(33, [0, 1]), (180, [1, 2, 0, 3])] [3, 2]) (-1) 1,
    -- 1077: del x95
    .del 33,
    -- 1078: lu11new -= einsum("wij,jkia->wak", x81, x96)
    .add 150 (.ein [(160, [0, 1, 2]), (180, [2, 3, 1, 4])] [0, 4, 3]) (-1) 1,
    -- 1079: del x96
    .del 180,
    -- 1080: x97 = np.zeros((nocc, nocc, nocc, nvir), dtype=types[float])
    .zeros 181 [0, 0, 0, 1],
    -- 1081: x97 -= einsum("ijka->ikja", v.ooov)
    .add 181 (.ein [(12, [0, 1, 2, 3])] [0, 2, 1, 3]) (-1) 1,
    -- 1082: x97 += einsum("ijka->kija", v.ooov) * 2
    .add 181 (.ein [(12, [0, 1, 2, 3])] [2, 0, 1, 3]) 2 1,
    -- 1083: x102 = np.zeros((nbos, nocc, nocc), dtype=types[float])
    .zeros 182 [2, 0, 0],
    -- 1084: x102 += einsum("wia,ijka->wjk", u11, x97)
    .add 182 (.ein [(20, [0, 1, 2]), (181, [1, 3, 4, 2])] [0, 3, 4]) 1 1,
    -- 1085: x132 = np.zeros((nocc, nocc, nvir, nvir), dtype=types[float])
    .zeros 183 [0, 0, 1, 1],
    -- 1086: x132 += einsum("ijka,lkjb->ilab", x34, x97)
    .add 183 (.ein [(93, [0, 1, 2, 3]), (181, [4, 2, 1, 5])] [0, 4, 3, 5]) 1 1,
    -- 1087: x142 -= einsum("ijab->ijab", x132)
    .add 103 (.ein [(183, [0, 1, 2, 3])] [0, 1, 2, 3]) (-1) 1,
    -- 1088: del x132
    .del 183,
    -- 1089: x133 = np.zeros((nocc, nocc), dtype=types[float])
    .zeros 184 [0, 0],
    -- 1090: x133 += einsum("ia,ijka->jk", t1, x97)
    .add 184 (.ein [(5, [0, 1]), (181, [0, 2, 3, 1])] [2, 3]) 1 1,
    -- 1091: del x97
    .del 181,
    -- 1092: x135 += einsum("ij->ij", x133)
    .add 172 (.ein [(184, [0, 1])] [0, 1]) 1 1,
    -- 1093: del x133
    .del 184,
    -- 1094: x136 = np.zeros((nocc, nocc, nvir, nvir), dtype=types[float])
    .zeros 185 [0, 0, 1, 1],
    -- 1095: x136 += einsum("ij,abjk->kiab", x135, l2)
    .add 185 (.ein [(172, [0, 1]), (11, [2, 3, 1, 4])] [4, 0, 2, 3]) 1 1,
    -- 1096: del x135
    .del 172,
    -- 1097: x142 -= einsum("ijab->ijba", x136)
    .add 103 (.ein [(185, [0, 1, 2, 3])] [0, 1, 3, 2]) (-1) 1,
    -- 1098: del x136
    .del 185,
    -- 1099: x99 += einsum("ia->ia", f.ov)
    .add 40 (.ein [(7, [0, 1])] [0, 1]) 1 1,
    -- 1100: x102 += einsum("ia,wja->wij", x99, u11)
    .add 182 (.ein [(40, [0, 1]), (20, [2, 3, 1])] [2, 0, 3]) 1 1,
    -- 1101: x116 = np.zeros((nbos), dtype=types[float])
    .zeros 186 [2],
    -- 1102: x116 += einsum("ia,wia->w", x99, u11) * 2
    .add 186 (.ein [(40, [0, 1]), (20, [2, 0, 1])] [2]) 2 1,
    -- 1103: del x99
    .del 40,
    -- 1104: x101 += einsum("wia->wia", gc.bov)
    .add 175 (.ein [(28, [0, 1, 2])] [0, 1, 2]) 1 1,
    -- 1105: x102 += einsum("ia,wja->wji", t1, x101)
    .add 182 (.ein [(5, [0, 1]), (175, [2, 3, 1])] [2, 3, 0]) 1 1,
    -- 1106: l1new -= einsum("wia,wji->aj", x101, x81)
    .add 42 (.ein [(175, [0, 1, 2]), (160, [0, 3, 1])] [2, 3]) (-1) 1,
    -- 1107: del x101
    .del 175,
    -- 1108: x102 += einsum("wij->wij", gc.boo)
    .add 182 (.ein [(27, [0, 1, 2])] [0, 1, 2]) 1 1,
    -- 1109: l1new -= einsum("wai,wji->aj", lu11, x102)
    .add 42 (.ein [(17, [0, 1, 2]), (182, [0, 3, 2])] [1, 3]) (-1) 1,
    -- 1110: del x102
    .del 182,
    -- 1111: x103 += einsum("wab->wab", gc.bvv)
    .add 125 (.ein [(30, [0, 1, 2])] [0, 1, 2]) 1 1,
    -- 1112: l1new += einsum("wai,wab->bi", lu11, x103)
    .add 42 (.ein [(17, [0, 1, 2]), (125, [0, 1, 3])] [3, 2]) 1 1,
    -- 1113: del x103
    .del 125,
    -- 1114: x104 += einsum("wij->wij", g.boo)
    .add 143 (.ein [(0, [0, 1, 2])] [0, 1, 2]) 1 1,
    -- 1115: x173 -= einsum("ia,wij->wja", t1, x104)
    .add 86 (.ein [(5, [0, 1]), (143, [2, 0, 3])] [2, 3, 1]) (-1) 1,
    -- 1116: lu11new -= einsum("ai,wji->waj", l1, x104)
    .add 150 (.ein [(4, [0, 1]), (143, [2, 3, 1])] [2, 0, 3]) (-1) 1,
    -- 1117: x105 = np.zeros((nocc, nocc, nvir, nvir), dtype=types[float])
    .zeros 187 [0, 0, 1, 1],
    -- 1118: x105 += einsum("abij->jiba", l2) * 2
    .add 187 (.ein [(11, [0, 1, 2, 3])] [3, 2, 1, 0]) 2 1,
    -- 1119: x105 -= einsum("abij->jiab", l2)
    .add 187 (.ein [(11, [0, 1, 2, 3])] [3, 2, 0, 1]) (-1) 1,
    -- 1120: x106 = np.zeros((nbos, nocc, nvir), dtype=types[float])
    .zeros 188 [2, 0, 1],
    -- 1121: x106 += einsum("wia,ijab->wjb", u11, x105)
    .add 188 (.ein [(20, [0, 1, 2]), (187, [1, 3, 2, 4])] [0, 3, 4]) 1 1,
    -- 1122: x140 = np.zeros((nocc, nocc, nvir, nvir), dtype=types[float])
    .zeros 189 [0, 0, 1, 1],
    -- 1123: x140 += einsum("wia,wjb->ijab", g.bov, x106)
    .add 189 (.ein [(2, [0, 1, 2]), (188, [0, 3, 4])] [1, 3, 2, 4]) 1 1,
    -- 1124: x142 += einsum("ijab->ijab", x140)
    .add 103 (.ein [(189, [0, 1, 2, 3])] [0, 1, 2, 3]) 1 1,
    -- 1125: del x140
    .del 189,
    -- 1126: l1new -= einsum("wij,wja->ai", x104, x106)
    .add 42 (.ein [(143, [0, 1, 2]), (188, [0, 2, 3])] [3, 1]) (-1) 1,
    -- 1127: del x104
    .del 143,
    -- 1128: l1new += einsum("wab,wia->bi", g.bvv, x106)
    .add 42 (.ein [(3, [0, 1, 2]), (188, [0, 3, 1])] [2, 3]) 1 1,
    -- 1129: del x106
    .del 188,
    -- 1130: x107 = np.zeros((nocc, nocc, nvir, nvir), dtype=types[float])
    .zeros 190 [0, 0, 1, 1],
    -- 1131: x107 += einsum("iabj->ijba", v.ovvo) * 2
    .add 190 (.ein [(14, [0, 1, 2, 3])] [0, 3, 2, 1]) 2 1,
    -- 1132: x107 -= einsum("ijab->ijab", v.oovv)
    .add 190 (.ein [(13, [0, 1, 2, 3])] [0, 1, 2, 3]) (-1) 1,
    -- 1133: l1new += einsum("ai,jiab->bj", l1, x107)
    .add 42 (.ein [(4, [0, 1]), (190, [2, 1, 0, 3])] [3, 2]) 1 1,
    -- 1134: lu11new += einsum("wai,jiab->wbj", lu11, x107)
    .add 150 (.ein [(17, [0, 1, 2]), (190, [3, 2, 1, 4])] [0, 4, 3]) 1 1,
    -- 1135: del x107
    .del 190,
    -- 1136: x108 = np.zeros((nocc, nocc, nvir, nvir), dtype=types[float])
    .zeros 191 [0, 0, 1, 1],
    -- 1137: x108 += einsum("abij->jiba", l2)
    .add 191 (.ein [(11, [0, 1, 2, 3])] [3, 2, 1, 0]) 1 1,
    -- 1138: x108 += einsum("abij->jiab", l2) * -0.5
    .add 191 (.ein [(11, [0, 1, 2, 3])] [3, 2, 0, 1]) (-1) 2,
    -- 1139: x109 = np.zeros((nbos, nocc, nvir), dtype=types[float])
    .zeros 192 [2, 0, 1],
    -- 1140: x109 += einsum("wia,ijab->wjb", u11, x108)
    .add 192 (.ein [(20, [0, 1, 2]), (191, [1, 3, 2, 4])] [0, 3, 4]) 1 1,
    -- 1141: del x108
    .del 191,
    -- 1142: x111 += einsum("ia,wja->wji", t1, x109)
    .add 166 (.ein [(5, [0, 1]), (192, [2, 3, 1])] [2, 3, 0]) 1 1,
    -- 1143: del x109
    .del 192,
    -- 1144: x111 += einsum("ai,wja->wij", l1, u11) * 0.5
    .add 166 (.ein [(4, [0, 1]), (20, [2, 3, 0])] [2, 1, 3]) 1 2,
    -- 1145: l1new += einsum("wia,wji->aj", g.bov, x111) * -2
    .add 42 (.ein [(2, [0, 1, 2]), (166, [0, 3, 1])] [2, 3]) (-2) 1,
    -- 1146: del x111
    .del 166,
    -- 1147: x113 += einsum("ab->ab", f.vv)
    .add 127 (.ein [(23, [0, 1])] [0, 1]) 1 1,
    -- 1148: l1new += einsum("ai,ab->bi", l1, x113)
    .add 42 (.ein [(4, [0, 1]), (127, [0, 2])] [2, 1]) 1 1,
    -- 1149: del x113
    .del 127,
    -- 1150: x115 += einsum("ia->ia", f.ov)
    .add 170 (.ein [(7, [0, 1])] [0, 1]) 1 1,
    -- 1151: l1new -= einsum("ij,ja->ai", x114, x115)
    .add 42 (.ein [(34, [0, 1]), (170, [1, 2])] [2, 0]) (-1) 1,
    -- 1152: del x114
    .del 34,
    -- 1153: del x115
    .del 170,
    -- 1154: x116 += einsum("w->w", G)
    .add 186 (.ein [(24, [0])] [0]) 1 1,
    -- 1155: x116 += einsum("w,wx->x", s1, w)
    .add 186 (.ein [(6, [0]), (26, [0, 1])] [1]) 1 1,
    -- 1156: x116 += einsum("ia,wia->w", t1, gc.bov) * 2
    .add 186 (.ein [(5, [0, 1]), (28, [2, 0, 1])] [2]) 2 1,
    -- 1157: l1new += einsum("w,wai->ai", x116, lu11)
    .add 42 (.ein [(186, [0]), (17, [0, 1, 2])] [1, 2]) 1 1,
    -- 1158: del x116
    .del 186,
    -- 1159: x117 = np.zeros((nbos), dtype=types[float])
    .zeros 193 [2],
    -- 1160: x117 += einsum("w->w", s1)
    .add 193 (.ein [(6, [0])] [0]) 1 1,
    -- 1161: x117 += einsum("ai,wia->w", l1, u11) * 2
    .add 193 (.ein [(4, [0, 1]), (20, [2, 1, 0])] [2]) 2 1,
    -- 1162: l1new += einsum("w,wia->ai", x117, g.bov)
    .add 42 (.ein [(193, [0]), (2, [0, 1, 2])] [2, 1]) 1 1,
    -- 1163: del x117
    .del 193,
    -- 1164: x118 = np.zeros((nocc, nocc, nvir, nvir), dtype=types[float])
    .zeros 194 [0, 0, 1, 1],
    -- 1165: x118 += einsum("wia,wbj->ijab", gc.bov, lu11)
    .add 194 (.ein [(28, [0, 1, 2]), (17, [0, 3, 4])] [1, 4, 2, 3]) 1 1,
    -- 1166: x142 += einsum("ijab->ijab", x118)
    .add 103 (.ein [(194, [0, 1, 2, 3])] [0, 1, 2, 3]) 1 1,
    -- 1167: del x118
    .del 194,
    -- 1168: x119 = np.zeros((nocc, nocc, nvir, nvir), dtype=types[float])
    .zeros 195 [0, 0, 1, 1],
    -- 1169: x119 += einsum("ai,jikb->jkab", l1, v.ooov)
    .add 195 (.ein [(4, [0, 1]), (12, [2, 1, 3, 4])] [2, 3, 0, 4]) 1 1,
    -- 1170: x142 -= einsum("ijab->ijab", x119)
    .add 103 (.ein [(195, [0, 1, 2, 3])] [0, 1, 2, 3]) (-1) 1,
    -- 1171: del x119
    .del 195,
    -- 1172: x123 = np.zeros((nocc, nocc, nvir, nvir), dtype=types[float])
    .zeros 196 [0, 0, 1, 1],
    -- 1173: x123 += einsum("ia,jbca->ijcb", t1, v.ovvv)
    .add 196 (.ein [(5, [0, 1]), (9, [2, 3, 4, 1])] [0, 2, 4, 3]) 1 1,
    -- 1174: x126 += einsum("ijab->ijab", x123)
    .add 85 (.ein [(196, [0, 1, 2, 3])] [0, 1, 2, 3]) 1 1,
    -- 1175: del x123
    .del 196,
    -- 1176: x124 = np.zeros((nocc, nocc, nvir, nvir), dtype=types[float])
    .zeros 197 [0, 0, 1, 1],
    -- 1177: x124 += einsum("ijab,icka->jkbc", t2, v.ovov)
    .add 197 (.ein [(8, [0, 1, 2, 3]), (10, [0, 4, 5, 2])] [1, 5, 3, 4]) 1 1,
    -- 1178: x126 -= einsum("ijab->ijab", x124)
    .add 85 (.ein [(197, [0, 1, 2, 3])] [0, 1, 2, 3]) (-1) 1,
    -- 1179: del x124
    .del 197,
    -- 1180: x126 += einsum("iabj->jiba", v.ovvo)
    .add 85 (.ein [(14, [0, 1, 2, 3])] [3, 0, 2, 1]) 1 1,
    -- 1181: x127 = np.zeros((nocc, nocc, nvir, nvir), dtype=types[float])
    .zeros 198 [0, 0, 1, 1],
    -- 1182: x127 += einsum("ijab,ikac->jkbc", x105, x126)
    .add 198 (.ein [(187, [0, 1, 2, 3]), (85, [0, 4, 2, 5])] [1, 4, 3, 5]) 1 1,
    -- 1183: del x126
    .del 85,
    -- 1184: x142 += einsum("ijab->ijab", x127)
    .add 103 (.ein [(198, [0, 1, 2, 3])] [0, 1, 2, 3]) 1 1,
    -- 1185: del x127
    .del 198,
    -- 1186: x128 = np.zeros((nocc, nocc, nvir, nvir), dtype=types[float])
    .zeros 199 [0, 0, 1, 1],
    -- 1187: x128 += einsum("ijab,kbic->jkac", t2, v.ovov)
    .add 199 (.ein [(8, [0, 1, 2, 3]), (10, [4, 3, 0, 5])] [1, 4, 2, 5]) 1 1,
    -- 1188: x129 -= einsum("ijab->ijab", x128)
    .add 79 (.ein [(199, [0, 1, 2, 3])] [0, 1, 2, 3]) (-1) 1,
    -- 1189: del x128
    .del 199,
    -- 1190: x129 += einsum("ijab->jiab", v.oovv)
    .add 79 (.ein [(13, [0, 1, 2, 3])] [1, 0, 2, 3]) 1 1,
    -- 1191: x130 = np.zeros((nocc, nocc, nvir, nvir), dtype=types[float])
    .zeros 200 [0, 0, 1, 1],
    -- 1192: x130 += einsum("abij,ikac->jkbc", l2, x129)
    .add 200 (.ein [(11, [0, 1, 2, 3]), (79, [2, 4, 0, 5])] [3, 4, 1, 5]) 1 1,
    -- 1193: x142 -= einsum("ijab->ijab", x130)
    .add 103 (.ein [(200, [0, 1, 2, 3])] [0, 1, 2, 3]) (-1) 1,
    -- 1194: del x130
    .del 200,
    -- 1195: x149 = np.zeros((nocc, nocc, nvir, nvir), dtype=types[float])
    .zeros 201 [0, 0, 1, 1],
    -- 1196: x149 += einsum("abij,ikbc->jkac", l2, x129)
    .add 201 (.ein [(11, [0, 1, 2, 3]), (79, [2, 4, 1, 5])] [3, 4, 0, 5]) 1 1,
    -- 1197: del x129
    .del 79,
    -- 1198: x158 += einsum("ijab->ijab", x149)
    .add 70 (.ein [(201, [0, 1, 2, 3])] [0, 1, 2, 3]) 1 1,
    -- 1199: del x149
    .del 201,
    -- 1200: x141 += einsum("ia->ia", f.ov)
    .add 41 (.ein [(7, [0, 1])] [0, 1]) 1 1,
    -- 1201: x142 += einsum("ai,jb->jiba", l1, x141)
    .add 103 (.ein [(4, [0, 1]), (41, [2, 3])] [2, 1, 3, 0]) 1 1,
    -- 1202: l2new += einsum("ijab->abij", x142)
    .add 66 (.ein [(103, [0, 1, 2, 3])] [2, 3, 0, 1]) 1 1,
    -- 1203: l2new += einsum("ijab->baji", x142)
    .add 66 (.ein [(103, [0, 1, 2, 3])] [3, 2, 1, 0]) 1 1,
    -- 1204: del x142
    .del 103,
    -- 1205: x153 = np.zeros((nocc, nocc), dtype=types[float])
    .zeros 202 [0, 0],
    -- 1206: x153 += einsum("ia,ja->ij", t1, x141)
    .add 202 (.ein [(5, [0, 1]), (41, [2, 1])] [0, 2]) 1 1,
    -- 1207: x154 += einsum("ij->ji", x153)
    .add 145 (.ein [(202, [0, 1])] [1, 0]) 1 1,
    -- 1208: del x153
    .del 202,
    -- 1209: x157 = np.zeros((nocc, nocc, nvir, nvir), dtype=types[float])
    .zeros 203 [0, 0, 1, 1],
    -- 1210: x157 += einsum("ia,jkib->jkba", x141, x34)
    .add 203 (.ein [(41, [0, 1]), (93, [2, 3, 0, 4])] [2, 3, 4, 1]) 1 1,
    -- 1211: del x34
    .del 93,
    -- 1212: x158 += einsum("ijab->ijba", x157)
    .add 70 (.ein [(203, [0, 1, 2, 3])] [0, 1, 3, 2]) 1 1,
    -- 1213: del x157
    .del 203,
    -- 1214: lu11new -= einsum("ia,wji->waj", x141, x81)
    .add 150 (.ein [(41, [0, 1]), (160, [2, 3, 0])] [2, 1, 3]) (-1) 1,
    -- 1215: del x81
    .del 160,
    -- 1216: del x141
    .del 41,
    -- 1217: x143 = np.zeros((nocc, nocc, nvir, nvir), dtype=types[float])
    .zeros 204 [0, 0, 1, 1],
    -- 1218: x143 += einsum("ai,jbac->ijbc", l1, v.ovvv)
    .add 204 (.ein [(4, [0, 1]), (9, [2, 3, 0, 4])] [1, 2, 3, 4]) 1 1,
    -- 1219: x158 -= einsum("ijab->ijab", x143)
    .add 70 (.ein [(204, [0, 1, 2, 3])] [0, 1, 2, 3]) (-1) 1,
    -- 1220: del x143
    .del 204,
    -- 1221: x150 = np.zeros((nvir, nvir), dtype=types[float])
    .zeros 205 [1, 1],
    -- 1222: x150 += einsum("wia,wib->ab", g.bov, u11)
    .add 205 (.ein [(2, [0, 1, 2]), (20, [0, 1, 3])] [2, 3]) 1 1,
    -- 1223: x151 -= einsum("ab->ba", x150)
    .add 153 (.ein [(205, [0, 1])] [1, 0]) (-1) 1,
    -- 1224: x177 += einsum("ab->ba", x150) * -1
    .add 54 (.ein [(205, [0, 1])] [1, 0]) (-1) 1,
    -- 1225: del x150
    .del 205,
    -- 1226: x151 += einsum("ab->ab", f.vv)
    .add 153 (.ein [(23, [0, 1])] [0, 1]) 1 1,
    -- 1227: x152 = np.zeros((nocc, nocc, nvir, nvir), dtype=types[float])
    .zeros 206 [0, 0, 1, 1],
    -- 1228: x152 += einsum("ab,acij->ijcb", x151, l2)
    .add 206 (.ein [(153, [0, 1]), (11, [0, 2, 3, 4])] [3, 4, 2, 1]) 1 1,
    -- 1229: del x151
    .del 153,
    -- 1230: x158 -= einsum("ijab->jiba", x152)
    .add 70 (.ein [(206, [0, 1, 2, 3])] [1, 0, 3, 2]) (-1) 1,
    -- 1231: del x152
    .del 206,
    -- 1232: x154 += einsum("ij->ij", f.oo)
    .add 145 (.ein [(22, [0, 1])] [0, 1]) 1 1,
    -- 1233: x155 = np.zeros((nocc, nocc, nvir, nvir), dtype=types[float])
    .zeros 207 [0, 0, 1, 1],
    -- 1234: x155 += einsum("ij,abjk->kiab", x154, l2)
    .add 207 (.ein [(145, [0, 1]), (11, [2, 3, 1, 4])] [4, 0, 2, 3]) 1 1,
    -- 1235: del x154
    .del 145,
    -- 1236: x158 += einsum("ijab->jiba", x155)
    .add 70 (.ein [(207, [0, 1, 2, 3])] [1, 0, 3, 2]) 1 1,
    -- 1237: del x155
    .del 207,
    -- 1238: l2new -= einsum("ijab->baij", x158)
    .add 66 (.ein [(70, [0, 1, 2, 3])] [3, 2, 0, 1]) (-1) 1,
    -- 1239: l2new -= einsum("ijab->abji", x158)
    .add 66 (.ein [(70, [0, 1, 2, 3])] [2, 3, 1, 0]) (-1) 1,
    -- 1240: del x158
    .del 70,
    -- 1241: x161 = np.zeros((nocc, nocc, nvir, nvir), dtype=types[float])
    .zeros 208 [0, 0, 1, 1],
    -- 1242: x161 += einsum("iajb->jiba", v.ovov) * -0.5
    .add 208 (.ein [(10, [0, 1, 2, 3])] [2, 0, 3, 1]) (-1) 2,
    -- 1243: x161 += einsum("iajb->jiab", v.ovov)
    .add 208 (.ein [(10, [0, 1, 2, 3])] [2, 0, 1, 3]) 1 1,
    -- 1244: x162 = np.zeros((nocc, nocc), dtype=types[float])
    .zeros 209 [0, 0],
    -- 1245: x162 += einsum("ijab,ikba->jk", t2, x161)
    .add 209 (.ein [(8, [0, 1, 2, 3]), (208, [0, 4, 3, 2])] [1, 4]) 1 1,
    -- 1246: del x161
    .del 208,
    -- 1247: x163 = np.zeros((nocc, nocc, nvir, nvir), dtype=types[float])
    .zeros 210 [0, 0, 1, 1],
    -- 1248: x163 += einsum("ij,abik->kjab", x162, l2) * 2
    .add 210 (.ein [(209, [0, 1]), (11, [2, 3, 0, 4])] [4, 1, 2, 3]) 2 1,
    -- 1249: del x162
    .del 209,
    -- 1250: x164 += einsum("ijab->ijba", x163)
    .add 59 (.ein [(210, [0, 1, 2, 3])] [0, 1, 3, 2]) 1 1,
    -- 1251: del x163
    .del 210,
    -- 1252: l2new += einsum("ijab->abij", x164) * -1
    .add 66 (.ein [(59, [0, 1, 2, 3])] [2, 3, 0, 1]) (-1) 1,
    -- 1253: l2new += einsum("ijab->baji", x164) * -1
    .add 66 (.ein [(59, [0, 1, 2, 3])] [3, 2, 1, 0]) (-1) 1,
    -- 1254: del x164
    .del 59,
    -- 1255: x169 += einsum("ijkl->kilj", v.oooo)
    .add 49 (.ein [(15, [0, 1, 2, 3])] [2, 0, 3, 1]) 1 1,
    -- 1256: l2new += einsum("abij,klji->ablk", l2, x169)
    .add 66 (.ein [(11, [0, 1, 2, 3]), (49, [4, 5, 3, 2])] [0, 1, 5, 4]) 1 1,
    -- 1257: del x169
    .del 49,
    -- 1258: x170 += einsum("ai->ia", f.vo)
    .add 131 (.ein [(25, [0, 1])] [1, 0]) 1 1,
    -- 1259: ls1new += einsum("ia,wai->w", x170, lu11) * 2
    .add 35 (.ein [(131, [0, 1]), (17, [2, 1, 0])] [2]) 2 1,
    -- 1260: del x170
    .del 131,
    -- 1261: x172 = np.zeros((nbos, nbos), dtype=types[float])
    .zeros 211 [2, 2],
    -- 1262: x172 += einsum("wai,xia->wx", lu11, u11)
    .add 211 (.ein [(17, [0, 1, 2]), (20, [3, 2, 1])] [0, 3]) 1 1,
    -- 1263: lu11new += einsum("wx,xia->wai", x172, g.bov) * 2
    .add 150 (.ein [(211, [0, 1]), (2, [1, 2, 3])] [0, 3, 2]) 2 1,
    -- 1264: del x172
    .del 211,
    -- 1265: x173 += einsum("wai->wia", g.bvo)
    .add 86 (.ein [(1, [0, 1, 2])] [0, 2, 1]) 1 1,
    -- 1266: x173 += einsum("ia,wba->wib", t1, g.bvv)
    .add 86 (.ein [(5, [0, 1]), (3, [2, 3, 1])] [2, 0, 3]) 1 1,
    -- 1267: lu11new += einsum("wia,ijab->wbj", x173, x105)
    .add 150 (.ein [(86, [0, 1, 2]), (187, [1, 3, 2, 4])] [0, 4, 3]) 1 1,
    -- 1268: del x105
    .del 187,
    -- 1269: del x173
    .del 86,
    -- 1270: x175 = np.zeros((nbos, nvir, nvir), dtype=types[float])
    .zeros 212 [2, 1, 1],
    -- 1271: x175 += einsum("ia,wbi->wba", t1, lu11)
    .add 212 (.ein [(5, [0, 1]), (17, [2, 3, 0])] [2, 3, 1]) 1 1,
    -- 1272: lu11new += einsum("wab,iacb->wci", x175, x51)
    .add 150 (.ein [(212, [0, 1, 2]), (124, [3, 1, 4, 2])] [0, 4, 3]) 1 1,
    -- 1273: del x51
    .del 124,
    -- 1274: del x175
    .del 212,
    -- 1275: x176 = np.zeros((nocc, nocc, nvir, nvir), dtype=types[float])
    .zeros 213 [0, 0, 1, 1],
    -- 1276: x176 += einsum("iajb->jiba", v.ovov) * 2
    .add 213 (.ein [(10, [0, 1, 2, 3])] [2, 0, 3, 1]) 2 1,
    -- 1277: x176 += einsum("iajb->jiab", v.ovov) * -1
    .add 213 (.ein [(10, [0, 1, 2, 3])] [2, 0, 1, 3]) (-1) 1,
    -- 1278: x177 += einsum("ijab,ijac->bc", t2, x176) * -1
    .add 54 (.ein [(8, [0, 1, 2, 3]), (213, [0, 1, 2, 4])] [3, 4]) (-1) 1,
    -- 1279: del x176
    .del 213,
    -- 1280: x177 += einsum("ab->ab", f.vv)
    .add 54 (.ein [(23, [0, 1])] [0, 1]) 1 1,
    -- 1281: lu11new += einsum("ab,wai->wbi", x177, lu11)
    .add 150 (.ein [(54, [0, 1]), (17, [2, 0, 3])] [2, 1, 3]) 1 1,
    -- 1282: del x177
    .del 54,
    -- 1283: x179 = np.zeros((nbos, nbos), dtype=types[float])
    .zeros 214 [2, 2],
    -- 1284: x179 += einsum("wx->wx", w)
    .add 214 (.ein [(26, [0, 1])] [0, 1]) 1 1,
    -- 1285: x179 += einsum("wia,xia->wx", g.bov, u11) * 2
    .add 214 (.ein [(2, [0, 1, 2]), (20, [3, 1, 2])] [0, 3]) 2 1,
    -- 1286: lu11new += einsum("wx,xai->wai", x179, lu11)
    .add 150 (.ein [(214, [0, 1]), (17, [1, 2, 3])] [0, 2, 3]) 1 1,
    -- 1287: del x179
    .del 214,
    -- 1288: l1new += einsum("w,wia->ai", ls1, gc.bov)
    .add 42 (.ein [(21, [0]), (28, [0, 1, 2])] [2, 1]) 1 1,
    -- 1289: l1new += einsum("ia->ai", f.ov)
    .add 42 (.ein [(7, [0, 1])] [1, 0]) 1 1,
    -- 1290: l2new += einsum("iajb->baji", v.ovov)
    .add 66 (.ein [(10, [0, 1, 2, 3])] [3, 1, 2, 0]) 1 1,
    -- 1291: l2new += einsum("abij,bcad->cdji", l2, v.vvvv)
    .add 66 (.ein [(11, [0, 1, 2, 3]), (18, [1, 4, 0, 5])] [4, 5, 3, 2]) 1 1,
    -- 1292: ls1new += einsum("ai,wai->w", l1, g.bvo) * 2
    .add 35 (.ein [(4, [0, 1]), (1, [2, 0, 1])] [2]) 2 1,
    -- 1293: ls1new += einsum("w,xw->x", ls1, w)
    .add 35 (.ein [(21, [0]), (26, [1, 0])] [1]) 1 1,
    -- 1294: ls1new += einsum("w->w", G)
    .add 35 (.ein [(24, [0])] [0]) 1 1,
    -- 1295: lu11new += einsum("ai,wab->wbi", l1, g.bvv)
    .add 150 (.ein [(4, [0, 1]), (3, [2, 0, 3])] [2, 3, 1]) 1 1,
    -- 1296: lu11new += einsum("wia->wai", g.bov)
    .add 150 (.ein [(2, [0, 1, 2])] [0, 2, 1]) 1 1
  ]
  ret := [(chars! "l1new", 42), (chars! "l2new", 66), (chars! "ls1new", 35), (chars! "lu11new", 150)]

end Ebcc.Gen.RCCSD_S_1_1
