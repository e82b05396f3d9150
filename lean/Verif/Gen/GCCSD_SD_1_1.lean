import Verif.Model.GenCode
/-!
Functions of `ebcc/codegen/GCCSD_SD_1_1.py`, written by `tools/gencode.py`.  Comments give the
number and the text of the line of each statement.
-/

set_option maxRecDepth 100000

namespace Ebcc.Gen.GCCSD_SD_1_1

/-- codegen/GCCSD_SD_1_1.py:7-23 `energy`. -/
def energy : GenFun where
  args := [chars! "t2", chars! "t1", chars! "v.oovv", chars! "u11", chars! "s1", chars! "g.bov", chars! "f.ov", chars! "G"]
  body := [
    -- 9: x0 = np.zeros((nocc, nocc, nvir, nvir), dtype=types[float])
    .zeros 8 [0, 0, 1, 1],
    -- 10: x0 += einsum("ijab->jiba", t2)
    .add 8 (.ein [(0, [0, 1, 2, 3])] [1, 0, 3, 2]) 1 1,
    -- 11: x0 += einsum("ia,jb->ijab", t1, t1) * 2
    .add 8 (.ein [(1, [0, 1]), (1, [2, 3])] [0, 2, 1, 3]) 2 1,
    -- 12: e_cc = 0
    .zeros 9 [],
    -- 13: e_cc += einsum("ijab,ijab->", v.oovv, x0) * 0.25
    .add 9 (.ein [(2, [0, 1, 2, 3]), (8, [0, 1, 2, 3])] []) 1 4,
    -- 14: del x0
    .del 8,
    -- 15: x1 = np.zeros((nbos, nocc, nvir), dtype=types[float])
    .zeros 10 [2, 0, 1],
    -- 16: x1 += einsum("wia->wia", u11)
    .add 10 (.ein [(3, [0, 1, 2])] [0, 1, 2]) 1 1,
    -- 17: x1 += einsum("w,ia->wia", s1, t1)
    .add 10 (.ein [(4, [0]), (1, [1, 2])] [0, 1, 2]) 1 1,
    -- 18: e_cc += einsum("wia,wia->", g.bov, x1)
    .add 9 (.ein [(5, [0, 1, 2]), (10, [0, 1, 2])] []) 1 1,
    -- 19: del x1
    .del 10,
    -- 20: e_cc += einsum("ia,ia->", f.ov, t1)
    .add 9 (.ein [(6, [0, 1]), (1, [0, 1])] []) 1 1,
    -- 21: e_cc += einsum("w,w->", G, s1)
    .add 9 (.ein [(7, [0]), (4, [0])] []) 1 1
  ]
  ret := [(chars! "e_cc", 9)]

/-- codegen/GCCSD_SD_1_1.py:25-388 `update_amps`. -/
def update_amps : GenFun where
  args := [chars! "g.boo", chars! "g.bvo", chars! "g.bov", chars! "g.bvv", chars! "t1", chars! "v.oovv", chars! "t2", chars! "v.ooov", chars! "s1", chars! "f.ov", chars! "u11", chars! "f.oo", chars! "v.ovvv", chars! "f.vv", chars! "G", chars! "s2", chars! "v.vvvv", chars! "v.ovov", chars! "v.vvov", chars! "v.oooo", chars! "v.ovoo", chars! "w", chars! "f.vo", chars! "v.vvoo"]
  body := [
    -- 27: gc = Namespace(
    .set 24 (.tr 0 [0, 2, 1]) 1 1,
    .set 25 (.tr 1 [0, 2, 1]) 1 1,
    .set 26 (.tr 2 [0, 2, 1]) 1 1,
    .set 27 (.tr 3 [0, 2, 1]) 1 1,
    -- 35: x0 = np.zeros((nocc, nocc, nocc, nvir), dtype=types[float])
    .zeros 28 [0, 0, 0, 1],
    -- 36: x0 += einsum("ia,jkba->ijkb", t1, v.oovv)
    .add 28 (.ein [(4, [0, 1]), (5, [2, 3, 4, 1])] [0, 2, 3, 4]) 1 1,
    -- 37: x1 = np.zeros((nocc, nocc, nocc, nvir), dtype=types[float])
    .zeros 29 [0, 0, 0, 1],
    -- 38: x1 += einsum("ijka->ikja", x0) * -1
    .add 29 (.ein [(28, [0, 1, 2, 3])] [0, 2, 1, 3]) (-1) 1,
    -- 39: x30 = np.zeros((nocc, nocc, nocc, nvir), dtype=types[float])
    .zeros 30 [0, 0, 0, 1],
    -- 40: x30 += einsum("ijab,kjlb->kila", t2, x0)
    .add 30 (.ein [(6, [0, 1, 2, 3]), (28, [4, 1, 5, 3])] [4, 0, 5, 2]) 1 1,
    -- 41: x31 = np.zeros((nocc, nocc, nocc, nvir), dtype=types[float])
    .zeros 31 [0, 0, 0, 1],
    -- 42: x31 -= einsum("ijka->ikja", x30)
    .add 31 (.ein [(30, [0, 1, 2, 3])] [0, 2, 1, 3]) (-1) 1,
    -- 43: del x30
    .del 30,
    -- 44: x65 = np.zeros((nocc, nocc, nocc, nocc), dtype=types[float])
    .zeros 32 [0, 0, 0, 0],
    -- 45: x65 += einsum("ia,jkla->jilk", t1, x0)
    .add 32 (.ein [(4, [0, 1]), (28, [2, 3, 4, 1])] [2, 0, 4, 3]) 1 1,
    -- 46: del x0
    .del 28,
    -- 47: x66 = np.zeros((nocc, nocc, nocc, nocc), dtype=types[float])
    .zeros 33 [0, 0, 0, 0],
    -- 48: x66 += einsum("ijkl->klji", x65) * -1
    .add 33 (.ein [(32, [0, 1, 2, 3])] [2, 3, 1, 0]) (-1) 1,
    -- 49: x67 = np.zeros((nocc, nocc, nocc, nocc), dtype=types[float])
    .zeros 34 [0, 0, 0, 0],
    -- 50: x67 += einsum("ijkl->klji", x65) * -1
    .add 34 (.ein [(32, [0, 1, 2, 3])] [2, 3, 1, 0]) (-1) 1,
    -- 51: del x65
    .del 32,
    -- 52: x1 += einsum("ijka->kjia", v.ooov)
    .add 29 (.ein [(7, [0, 1, 2, 3])] [2, 1, 0, 3]) 1 1,
    -- 53: t1new = np.zeros((nocc, nvir), dtype=types[float])
    .zeros 35 [0, 1],
    -- 54: t1new += einsum("ijab,kija->kb", t2, x1) * -0.5
    .add 35 (.ein [(6, [0, 1, 2, 3]), (29, [4, 0, 1, 2])] [4, 3]) (-1) 2,
    -- 55: del x1
    .del 29,
    -- 56: x2 = np.zeros((nocc, nvir), dtype=types[float])
    .zeros 36 [0, 1],
    -- 57: x2 += einsum("w,wia->ia", s1, g.bov)
    .add 36 (.ein [(8, [0]), (2, [0, 1, 2])] [1, 2]) 1 1,
    -- 58: x4 = np.zeros((nocc, nvir), dtype=types[float])
    .zeros 37 [0, 1],
    -- 59: x4 += einsum("ia->ia", x2)
    .add 37 (.ein [(36, [0, 1])] [0, 1]) 1 1,
    -- 60: x11 = np.zeros((nocc, nvir), dtype=types[float])
    .zeros 38 [0, 1],
    -- 61: x11 += einsum("ia->ia", x2)
    .add 38 (.ein [(36, [0, 1])] [0, 1]) 1 1,
    -- 62: x78 = np.zeros((nocc, nvir), dtype=types[float])
    .zeros 39 [0, 1],
    -- 63: x78 += einsum("ia->ia", x2)
    .add 39 (.ein [(36, [0, 1])] [0, 1]) 1 1,
    -- 64: del x2
    .del 36,
    -- 65: x3 = np.zeros((nocc, nvir), dtype=types[float])
    .zeros 40 [0, 1],
    -- 66: x3 += einsum("ia,jiba->jb", t1, v.oovv)
    .add 40 (.ein [(4, [0, 1]), (5, [2, 0, 3, 1])] [2, 3]) 1 1,
    -- 67: x4 += einsum("ia->ia", x3)
    .add 37 (.ein [(40, [0, 1])] [0, 1]) 1 1,
    -- 68: x11 += einsum("ia->ia", x3)
    .add 38 (.ein [(40, [0, 1])] [0, 1]) 1 1,
    -- 69: x77 = np.zeros((nvir, nvir), dtype=types[float])
    .zeros 41 [1, 1],
    -- 70: x77 += einsum("ia,ib->ab", t1, x3)
    .add 41 (.ein [(4, [0, 1]), (40, [0, 2])] [1, 2]) 1 1,
    -- 71: del x3
    .del 40,
    -- 72: x4 += einsum("ia->ia", f.ov)
    .add 37 (.ein [(9, [0, 1])] [0, 1]) 1 1,
    -- 73: x38 = np.zeros((nocc, nocc, nocc, nvir), dtype=types[float])
    .zeros 42 [0, 0, 0, 1],
    -- 74: x38 += einsum("ia,jkab->jkib", x4, t2)
    .add 42 (.ein [(37, [0, 1]), (6, [2, 3, 1, 4])] [2, 3, 0, 4]) 1 1,
    -- 75: x39 = np.zeros((nocc, nocc, nocc, nvir), dtype=types[float])
    .zeros 43 [0, 0, 0, 1],
    -- 76: x39 += einsum("ijka->kjia", x38)
    .add 43 (.ein [(42, [0, 1, 2, 3])] [2, 1, 0, 3]) 1 1,
    -- 77: del x38
    .del 42,
    -- 78: x54 = np.zeros((nocc, nocc), dtype=types[float])
    .zeros 44 [0, 0],
    -- 79: x54 += einsum("ia,ja->ij", t1, x4)
    .add 44 (.ein [(4, [0, 1]), (37, [2, 1])] [0, 2]) 1 1,
    -- 80: x55 = np.zeros((nocc, nocc), dtype=types[float])
    .zeros 45 [0, 0],
    -- 81: x55 += einsum("ij->ij", x54)
    .add 45 (.ein [(44, [0, 1])] [0, 1]) 1 1,
    -- 82: del x54
    .del 44,
    -- 83: t1new += einsum("ia,ijab->jb", x4, t2)
    .add 35 (.ein [(37, [0, 1]), (6, [0, 2, 1, 3])] [2, 3]) 1 1,
    -- 84: s1new = np.zeros((nbos), dtype=types[float])
    .zeros 46 [2],
    -- 85: s1new += einsum("ia,wia->w", x4, u11)
    .add 46 (.ein [(37, [0, 1]), (10, [2, 0, 1])] [2]) 1 1,
    -- 86: del x4
    .del 37,
    -- 87: x5 = np.zeros((nbos, nocc, nocc), dtype=types[float])
    .zeros 47 [2, 0, 0],
    -- 88: x5 += einsum("ia,wja->wji", t1, g.bov)
    .add 47 (.ein [(4, [0, 1]), (2, [2, 3, 1])] [2, 3, 0]) 1 1,
    -- 89: x6 = np.zeros((nbos, nocc, nocc), dtype=types[float])
    .zeros 48 [2, 0, 0],
    -- 90: x6 += einsum("wij->wij", x5)
    .add 48 (.ein [(47, [0, 1, 2])] [0, 1, 2]) 1 1,
    -- 91: del x5
    .del 47,
    -- 92: x6 += einsum("wij->wij", g.boo)
    .add 48 (.ein [(0, [0, 1, 2])] [0, 1, 2]) 1 1,
    -- 93: x25 = np.zeros((nbos, nocc, nvir), dtype=types[float])
    .zeros 49 [2, 0, 1],
    -- 94: x25 += einsum("ia,wij->wja", t1, x6)
    .add 49 (.ein [(4, [0, 1]), (48, [2, 0, 3])] [2, 3, 1]) 1 1,
    -- 95: x26 = np.zeros((nbos, nocc, nvir), dtype=types[float])
    .zeros 50 [2, 0, 1],
    -- 96: x26 -= einsum("wia->wia", x25)
    .add 50 (.ein [(49, [0, 1, 2])] [0, 1, 2]) (-1) 1,
    -- 97: del x25
    .del 49,
    -- 98: t1new -= einsum("wia,wij->ja", u11, x6)
    .add 35 (.ein [(10, [0, 1, 2]), (48, [0, 1, 3])] [3, 2]) (-1) 1,
    -- 99: del x6
    .del 48,
    -- 100: x7 = np.zeros((nocc, nocc), dtype=types[float])
    .zeros 51 [0, 0],
    -- 101: x7 += einsum("w,wij->ij", s1, g.boo)
    .add 51 (.ein [(8, [0]), (0, [0, 1, 2])] [1, 2]) 1 1,
    -- 102: x13 = np.zeros((nocc, nocc), dtype=types[float])
    .zeros 52 [0, 0],
    -- 103: x13 += einsum("ij->ij", x7)
    .add 52 (.ein [(51, [0, 1])] [0, 1]) 1 1,
    -- 104: x55 += einsum("ij->ji", x7)
    .add 45 (.ein [(51, [0, 1])] [1, 0]) 1 1,
    -- 105: del x7
    .del 51,
    -- 106: x8 = np.zeros((nocc, nocc), dtype=types[float])
    .zeros 53 [0, 0],
    -- 107: x8 += einsum("wia,wja->ij", g.bov, u11)
    .add 53 (.ein [(2, [0, 1, 2]), (10, [0, 3, 2])] [1, 3]) 1 1,
    -- 108: x13 += einsum("ij->ij", x8)
    .add 52 (.ein [(53, [0, 1])] [0, 1]) 1 1,
    -- 109: x57 = np.zeros((nocc, nocc), dtype=types[float])
    .zeros 54 [0, 0],
    -- 110: x57 += einsum("ij->ij", x8)
    .add 54 (.ein [(53, [0, 1])] [0, 1]) 1 1,
    -- 111: del x8
    .del 53,
    -- 112: x9 = np.zeros((nocc, nocc), dtype=types[float])
    .zeros 55 [0, 0],
    -- 113: x9 -= einsum("ia,ijka->jk", t1, v.ooov)
    .add 55 (.ein [(4, [0, 1]), (7, [0, 2, 3, 1])] [2, 3]) (-1) 1,
    -- 114: x13 += einsum("ij->ij", x9)
    .add 52 (.ein [(55, [0, 1])] [0, 1]) 1 1,
    -- 115: x57 += einsum("ij->ij", x9)
    .add 54 (.ein [(55, [0, 1])] [0, 1]) 1 1,
    -- 116: del x9
    .del 55,
    -- 117: x58 = np.zeros((nocc, nocc, nvir, nvir), dtype=types[float])
    .zeros 56 [0, 0, 1, 1],
    -- 118: x58 += einsum("ij,ikab->kjab", x57, t2)
    .add 56 (.ein [(54, [0, 1]), (6, [0, 2, 3, 4])] [2, 1, 3, 4]) 1 1,
    -- 119: del x57
    .del 54,
    -- 120: x59 = np.zeros((nocc, nocc, nvir, nvir), dtype=types[float])
    .zeros 57 [0, 0, 1, 1],
    -- 121: x59 -= einsum("ijab->ijba", x58)
    .add 57 (.ein [(56, [0, 1, 2, 3])] [0, 1, 3, 2]) (-1) 1,
    -- 122: del x58
    .del 56,
    -- 123: x10 = np.zeros((nocc, nocc), dtype=types[float])
    .zeros 58 [0, 0],
    -- 124: x10 -= einsum("ijab,jkab->ik", t2, v.oovv)
    .add 58 (.ein [(6, [0, 1, 2, 3]), (5, [1, 4, 2, 3])] [0, 4]) (-1) 1,
    -- 125: x13 += einsum("ij->ji", x10) * 0.5
    .add 52 (.ein [(58, [0, 1])] [1, 0]) 1 2,
    -- 126: x62 = np.zeros((nocc, nocc, nvir, nvir), dtype=types[float])
    .zeros 59 [0, 0, 1, 1],
    -- 127: x62 += einsum("ij,kjab->kiab", x10, t2)
    .add 59 (.ein [(58, [0, 1]), (6, [2, 1, 3, 4])] [2, 0, 3, 4]) 1 1,
    -- 128: del x10
    .del 58,
    -- 129: x63 = np.zeros((nocc, nocc, nvir, nvir), dtype=types[float])
    .zeros 60 [0, 0, 1, 1],
    -- 130: x63 += einsum("ijab->ijba", x62) * -0.5
    .add 60 (.ein [(59, [0, 1, 2, 3])] [0, 1, 3, 2]) (-1) 2,
    -- 131: del x62
    .del 59,
    -- 132: x11 += einsum("ia->ia", f.ov)
    .add 38 (.ein [(9, [0, 1])] [0, 1]) 1 1,
    -- 133: x12 = np.zeros((nocc, nocc), dtype=types[float])
    .zeros 61 [0, 0],
    -- 134: x12 += einsum("ia,ja->ij", t1, x11)
    .add 61 (.ein [(4, [0, 1]), (38, [2, 1])] [0, 2]) 1 1,
    -- 135: del x11
    .del 38,
    -- 136: x13 += einsum("ij->ji", x12)
    .add 52 (.ein [(61, [0, 1])] [1, 0]) 1 1,
    -- 137: del x12
    .del 61,
    -- 138: x13 += einsum("ij->ij", f.oo)
    .add 52 (.ein [(11, [0, 1])] [0, 1]) 1 1,
    -- 139: t1new += einsum("ia,ij->ja", t1, x13) * -1
    .add 35 (.ein [(4, [0, 1]), (52, [0, 2])] [2, 1]) (-1) 1,
    -- 140: u11new = np.zeros((nbos, nocc, nvir), dtype=types[float])
    .zeros 62 [2, 0, 1],
    -- 141: u11new += einsum("ij,wia->wja", x13, u11) * -1
    .add 62 (.ein [(52, [0, 1]), (10, [2, 0, 3])] [2, 1, 3]) (-1) 1,
    -- 142: del x13
    .del 52,
    -- 143: x14 = np.zeros((nvir, nvir), dtype=types[float])
    .zeros 63 [1, 1],
    -- 144: x14 += einsum("w,wab->ab", s1, g.bvv)
    .add 63 (.ein [(8, [0]), (3, [0, 1, 2])] [1, 2]) 1 1,
    -- 145: x16 = np.zeros((nvir, nvir), dtype=types[float])
    .zeros 64 [1, 1],
    -- 146: x16 += einsum("ab->ab", x14)
    .add 64 (.ein [(63, [0, 1])] [0, 1]) 1 1,
    -- 147: x34 = np.zeros((nocc, nocc, nvir, nvir), dtype=types[float])
    .zeros 65 [0, 0, 1, 1],
    -- 148: x34 += einsum("ab,ijcb->ijac", x14, t2)
    .add 65 (.ein [(63, [0, 1]), (6, [2, 3, 4, 1])] [2, 3, 0, 4]) 1 1,
    -- 149: x44 = np.zeros((nocc, nocc, nvir, nvir), dtype=types[float])
    .zeros 66 [0, 0, 1, 1],
    -- 150: x44 += einsum("ijab->ijab", x34)
    .add 66 (.ein [(65, [0, 1, 2, 3])] [0, 1, 2, 3]) 1 1,
    -- 151: del x34
    .del 65,
    -- 152: x77 += einsum("ab->ab", x14) * -1
    .add 41 (.ein [(63, [0, 1])] [0, 1]) (-1) 1,
    -- 153: del x14
    .del 63,
    -- 154: x15 = np.zeros((nvir, nvir), dtype=types[float])
    .zeros 67 [1, 1],
    -- 155: x15 -= einsum("ia,ibac->bc", t1, v.ovvv)
    .add 67 (.ein [(4, [0, 1]), (12, [0, 2, 1, 3])] [2, 3]) (-1) 1,
    -- 156: x16 -= einsum("ab->ab", x15)
    .add 64 (.ein [(67, [0, 1])] [0, 1]) (-1) 1,
    -- 157: x42 = np.zeros((nvir, nvir), dtype=types[float])
    .zeros 68 [1, 1],
    -- 158: x42 += einsum("ab->ab", x15)
    .add 68 (.ein [(67, [0, 1])] [0, 1]) 1 1,
    -- 159: x77 += einsum("ab->ab", x15)
    .add 41 (.ein [(67, [0, 1])] [0, 1]) 1 1,
    -- 160: del x15
    .del 67,
    -- 161: x16 += einsum("ab->ab", f.vv)
    .add 64 (.ein [(13, [0, 1])] [0, 1]) 1 1,
    -- 162: t1new += einsum("ia,ba->ib", t1, x16)
    .add 35 (.ein [(4, [0, 1]), (64, [2, 1])] [0, 2]) 1 1,
    -- 163: del x16
    .del 64,
    -- 164: x17 = np.zeros((nbos), dtype=types[float])
    .zeros 69 [2],
    -- 165: x17 += einsum("ia,wia->w", t1, g.bov)
    .add 69 (.ein [(4, [0, 1]), (2, [2, 0, 1])] [2]) 1 1,
    -- 166: x18 = np.zeros((nbos), dtype=types[float])
    .zeros 70 [2],
    -- 167: x18 += einsum("w->w", x17)
    .add 70 (.ein [(69, [0])] [0]) 1 1,
    -- 168: del x17
    .del 69,
    -- 169: x18 += einsum("w->w", G)
    .add 70 (.ein [(14, [0])] [0]) 1 1,
    -- 170: t1new += einsum("w,wia->ia", x18, u11)
    .add 35 (.ein [(70, [0]), (10, [0, 1, 2])] [1, 2]) 1 1,
    -- 171: s1new += einsum("w,wx->x", x18, s2)
    .add 46 (.ein [(70, [0]), (15, [0, 1])] [1]) 1 1,
    -- 172: del x18
    .del 70,
    -- 173: x19 = np.zeros((nocc, nvir, nvir, nvir), dtype=types[float])
    .zeros 71 [0, 1, 1, 1],
    -- 174: x19 += einsum("ia,bcda->ibcd", t1, v.vvvv)
    .add 71 (.ein [(4, [0, 1]), (16, [2, 3, 4, 1])] [0, 2, 3, 4]) 1 1,
    -- 175: t2new = np.zeros((nocc, nocc, nvir, nvir), dtype=types[float])
    .zeros 72 [0, 0, 1, 1],
    -- 176: t2new -= einsum("ia,jbca->ijcb", t1, x19)
    .add 72 (.ein [(4, [0, 1]), (71, [2, 3, 4, 1])] [0, 2, 4, 3]) (-1) 1,
    -- 177: del x19
    .del 71,
    -- 178: x20 = np.zeros((nocc, nocc, nvir, nvir), dtype=types[float])
    .zeros 73 [0, 0, 1, 1],
    -- 179: x20 += einsum("ijab,jckb->ikac", t2, v.ovov)
    .add 73 (.ein [(6, [0, 1, 2, 3]), (17, [1, 4, 5, 3])] [0, 5, 2, 4]) 1 1,
    -- 180: x33 = np.zeros((nocc, nocc, nvir, nvir), dtype=types[float])
    .zeros 74 [0, 0, 1, 1],
    -- 181: x33 -= einsum("ijab->ijab", x20)
    .add 74 (.ein [(73, [0, 1, 2, 3])] [0, 1, 2, 3]) (-1) 1,
    -- 182: del x20
    .del 73,
    -- 183: x21 = np.zeros((nocc, nocc, nvir, nvir), dtype=types[float])
    .zeros 75 [0, 0, 1, 1],
    -- 184: x21 += einsum("ia,jbca->ijbc", t1, v.ovvv)
    .add 75 (.ein [(4, [0, 1]), (12, [2, 3, 4, 1])] [0, 2, 3, 4]) 1 1,
    -- 185: x22 = np.zeros((nocc, nocc, nvir, nvir), dtype=types[float])
    .zeros 76 [0, 0, 1, 1],
    -- 186: x22 -= einsum("ijab,kjcb->kiac", t2, x21)
    .add 76 (.ein [(6, [0, 1, 2, 3]), (75, [4, 1, 5, 3])] [4, 0, 2, 5]) (-1) 1,
    -- 187: x33 += einsum("ijab->ijab", x22)
    .add 74 (.ein [(76, [0, 1, 2, 3])] [0, 1, 2, 3]) 1 1,
    -- 188: del x22
    .del 76,
    -- 189: x37 = np.zeros((nocc, nocc, nocc, nvir), dtype=types[float])
    .zeros 77 [0, 0, 0, 1],
    -- 190: x37 -= einsum("ia,jkba->jikb", t1, x21)
    .add 77 (.ein [(4, [0, 1]), (75, [2, 3, 4, 1])] [2, 0, 3, 4]) (-1) 1,
    -- 191: del x21
    .del 75,
    -- 192: x39 += einsum("ijka->kjia", x37)
    .add 43 (.ein [(77, [0, 1, 2, 3])] [2, 1, 0, 3]) 1 1,
    -- 193: del x37
    .del 77,
    -- 194: x40 = np.zeros((nocc, nocc, nvir, nvir), dtype=types[float])
    .zeros 78 [0, 0, 1, 1],
    -- 195: x40 += einsum("ia,ijkb->jkab", t1, x39)
    .add 78 (.ein [(4, [0, 1]), (43, [0, 2, 3, 4])] [2, 3, 1, 4]) 1 1,
    -- 196: del x39
    .del 43,
    -- 197: x44 += einsum("ijab->jiab", x40)
    .add 66 (.ein [(78, [0, 1, 2, 3])] [1, 0, 2, 3]) 1 1,
    -- 198: del x40
    .del 78,
    -- 199: x23 = np.zeros((nbos, nocc, nvir), dtype=types[float])
    .zeros 79 [2, 0, 1],
    -- 200: x23 += einsum("ia,wba->wib", t1, g.bvv)
    .add 79 (.ein [(4, [0, 1]), (3, [2, 3, 1])] [2, 0, 3]) 1 1,
    -- 201: x26 += einsum("wia->wia", x23)
    .add 50 (.ein [(79, [0, 1, 2])] [0, 1, 2]) 1 1,
    -- 202: del x23
    .del 79,
    -- 203: x24 = np.zeros((nbos, nocc, nvir), dtype=types[float])
    .zeros 80 [2, 0, 1],
    -- 204: x24 += einsum("wia,jiba->wjb", g.bov, t2)
    .add 80 (.ein [(2, [0, 1, 2]), (6, [3, 1, 4, 2])] [0, 3, 4]) 1 1,
    -- 205: x26 += einsum("wia->wia", x24)
    .add 50 (.ein [(80, [0, 1, 2])] [0, 1, 2]) 1 1,
    -- 206: del x24
    .del 80,
    -- 207: x26 += einsum("wai->wia", g.bvo)
    .add 50 (.ein [(1, [0, 1, 2])] [0, 2, 1]) 1 1,
    -- 208: x27 = np.zeros((nocc, nocc, nvir, nvir), dtype=types[float])
    .zeros 81 [0, 0, 1, 1],
    -- 209: x27 += einsum("wia,wjb->ijab", u11, x26)
    .add 81 (.ein [(10, [0, 1, 2]), (50, [0, 3, 4])] [1, 3, 2, 4]) 1 1,
    -- 210: del x26
    .del 50,
    -- 211: x33 += einsum("ijab->jiba", x27)
    .add 74 (.ein [(81, [0, 1, 2, 3])] [1, 0, 3, 2]) 1 1,
    -- 212: del x27
    .del 81,
    -- 213: x28 = np.zeros((nocc, nocc, nocc, nvir), dtype=types[float])
    .zeros 82 [0, 0, 0, 1],
    -- 214: x28 += einsum("ia,jbka->ijkb", t1, v.ovov)
    .add 82 (.ein [(4, [0, 1]), (17, [2, 3, 4, 1])] [0, 2, 4, 3]) 1 1,
    -- 215: x31 += einsum("ijka->ijka", x28)
    .add 31 (.ein [(82, [0, 1, 2, 3])] [0, 1, 2, 3]) 1 1,
    -- 216: del x28
    .del 82,
    -- 217: x29 = np.zeros((nocc, nocc, nocc, nvir), dtype=types[float])
    .zeros 83 [0, 0, 0, 1],
    -- 218: x29 -= einsum("ijab,jklb->ikla", t2, v.ooov)
    .add 83 (.ein [(6, [0, 1, 2, 3]), (7, [1, 4, 5, 3])] [0, 4, 5, 2]) (-1) 1,
    -- 219: x31 += einsum("ijka->ijka", x29)
    .add 31 (.ein [(83, [0, 1, 2, 3])] [0, 1, 2, 3]) 1 1,
    -- 220: del x29
    .del 83,
    -- 221: x32 = np.zeros((nocc, nocc, nvir, nvir), dtype=types[float])
    .zeros 84 [0, 0, 1, 1],
    -- 222: x32 += einsum("ia,jikb->jkab", t1, x31)
    .add 84 (.ein [(4, [0, 1]), (31, [2, 0, 3, 4])] [2, 3, 1, 4]) 1 1,
    -- 223: del x31
    .del 31,
    -- 224: x33 += einsum("ijab->ijab", x32)
    .add 74 (.ein [(84, [0, 1, 2, 3])] [0, 1, 2, 3]) 1 1,
    -- 225: del x32
    .del 84,
    -- 226: t2new += einsum("ijab->ijab", x33)
    .add 72 (.ein [(74, [0, 1, 2, 3])] [0, 1, 2, 3]) 1 1,
    -- 227: t2new -= einsum("ijab->ijba", x33)
    .add 72 (.ein [(74, [0, 1, 2, 3])] [0, 1, 3, 2]) (-1) 1,
    -- 228: t2new -= einsum("ijab->jiab", x33)
    .add 72 (.ein [(74, [0, 1, 2, 3])] [1, 0, 2, 3]) (-1) 1,
    -- 229: t2new += einsum("ijab->jiba", x33)
    .add 72 (.ein [(74, [0, 1, 2, 3])] [1, 0, 3, 2]) 1 1,
    -- 230: del x33
    .del 74,
    -- 231: x35 = np.zeros((nocc, nocc, nvir, nvir), dtype=types[float])
    .zeros 85 [0, 0, 1, 1],
    -- 232: x35 += einsum("ijab,jkbc->ikac", t2, v.oovv)
    .add 85 (.ein [(6, [0, 1, 2, 3]), (5, [1, 4, 3, 5])] [0, 4, 2, 5]) 1 1,
    -- 233: x36 = np.zeros((nocc, nocc, nvir, nvir), dtype=types[float])
    .zeros 86 [0, 0, 1, 1],
    -- 234: x36 += einsum("ijab,kjcb->kica", t2, x35)
    .add 86 (.ein [(6, [0, 1, 2, 3]), (85, [4, 1, 5, 3])] [4, 0, 5, 2]) 1 1,
    -- 235: del x35
    .del 85,
    -- 236: x44 -= einsum("ijab->ijab", x36)
    .add 66 (.ein [(86, [0, 1, 2, 3])] [0, 1, 2, 3]) (-1) 1,
    -- 237: del x36
    .del 86,
    -- 238: x41 = np.zeros((nvir, nvir), dtype=types[float])
    .zeros 87 [1, 1],
    -- 239: x41 += einsum("wia,wib->ab", g.bov, u11)
    .add 87 (.ein [(2, [0, 1, 2]), (10, [0, 1, 3])] [2, 3]) 1 1,
    -- 240: x42 += einsum("ab->ba", x41)
    .add 68 (.ein [(87, [0, 1])] [1, 0]) 1 1,
    -- 241: x43 = np.zeros((nocc, nocc, nvir, nvir), dtype=types[float])
    .zeros 88 [0, 0, 1, 1],
    -- 242: x43 += einsum("ab,ijbc->ijca", x42, t2)
    .add 88 (.ein [(68, [0, 1]), (6, [2, 3, 1, 4])] [2, 3, 4, 0]) 1 1,
    -- 243: del x42
    .del 68,
    -- 244: x44 += einsum("ijab->jiab", x43)
    .add 66 (.ein [(88, [0, 1, 2, 3])] [1, 0, 2, 3]) 1 1,
    -- 245: del x43
    .del 88,
    -- 246: t2new -= einsum("ijab->ijab", x44)
    .add 72 (.ein [(66, [0, 1, 2, 3])] [0, 1, 2, 3]) (-1) 1,
    -- 247: t2new += einsum("ijab->ijba", x44)
    .add 72 (.ein [(66, [0, 1, 2, 3])] [0, 1, 3, 2]) 1 1,
    -- 248: del x44
    .del 66,
    -- 249: x77 += einsum("ab->ba", x41)
    .add 41 (.ein [(87, [0, 1])] [1, 0]) 1 1,
    -- 250: del x41
    .del 87,
    -- 251: x45 = np.zeros((nocc, nocc, nocc, nvir), dtype=types[float])
    .zeros 89 [0, 0, 0, 1],
    -- 252: x45 += einsum("ijab,kcab->ijkc", t2, v.ovvv)
    .add 89 (.ein [(6, [0, 1, 2, 3]), (12, [4, 5, 2, 3])] [0, 1, 4, 5]) 1 1,
    -- 253: x46 = np.zeros((nocc, nocc, nvir, nvir), dtype=types[float])
    .zeros 90 [0, 0, 1, 1],
    -- 254: x46 += einsum("ia,jkib->jkab", t1, x45)
    .add 90 (.ein [(4, [0, 1]), (89, [2, 3, 0, 4])] [2, 3, 1, 4]) 1 1,
    -- 255: del x45
    .del 89,
    -- 256: x49 = np.zeros((nocc, nocc, nvir, nvir), dtype=types[float])
    .zeros 91 [0, 0, 1, 1],
    -- 257: x49 += einsum("ijab->ijab", x46) * 0.5
    .add 91 (.ein [(90, [0, 1, 2, 3])] [0, 1, 2, 3]) 1 2,
    -- 258: del x46
    .del 90,
    -- 259: x47 = np.zeros((nvir, nvir), dtype=types[float])
    .zeros 92 [1, 1],
    -- 260: x47 -= einsum("ijab,ijbc->ac", t2, v.oovv)
    .add 92 (.ein [(6, [0, 1, 2, 3]), (5, [0, 1, 3, 4])] [2, 4]) (-1) 1,
    -- 261: x48 = np.zeros((nocc, nocc, nvir, nvir), dtype=types[float])
    .zeros 93 [0, 0, 1, 1],
    -- 262: x48 += einsum("ab,ijcb->ijca", x47, t2)
    .add 93 (.ein [(92, [0, 1]), (6, [2, 3, 4, 1])] [2, 3, 4, 0]) 1 1,
    -- 263: x49 += einsum("ijab->ijab", x48) * 0.5
    .add 91 (.ein [(93, [0, 1, 2, 3])] [0, 1, 2, 3]) 1 2,
    -- 264: del x48
    .del 93,
    -- 265: t2new += einsum("ijab->ijab", x49) * -1
    .add 72 (.ein [(91, [0, 1, 2, 3])] [0, 1, 2, 3]) (-1) 1,
    -- 266: t2new += einsum("ijab->ijba", x49)
    .add 72 (.ein [(91, [0, 1, 2, 3])] [0, 1, 3, 2]) 1 1,
    -- 267: del x49
    .del 91,
    -- 268: x77 += einsum("ab->ab", x47) * 0.5
    .add 41 (.ein [(92, [0, 1])] [0, 1]) 1 2,
    -- 269: del x47
    .del 92,
    -- 270: x50 = np.zeros((nocc, nocc, nvir, nvir), dtype=types[float])
    .zeros 94 [0, 0, 1, 1],
    -- 271: x50 += einsum("ia,bcja->ijbc", t1, v.vvov)
    .add 94 (.ein [(4, [0, 1]), (18, [2, 3, 4, 1])] [0, 4, 2, 3]) 1 1,
    -- 272: x59 += einsum("ijab->ijba", x50)
    .add 57 (.ein [(94, [0, 1, 2, 3])] [0, 1, 3, 2]) 1 1,
    -- 273: del x50
    .del 94,
    -- 274: x51 = np.zeros((nocc, nocc, nocc, nocc), dtype=types[float])
    .zeros 95 [0, 0, 0, 0],
    -- 275: x51 += einsum("ia,jkla->ijkl", t1, v.ooov)
    .add 95 (.ein [(4, [0, 1]), (7, [2, 3, 4, 1])] [0, 2, 3, 4]) 1 1,
    -- 276: x52 = np.zeros((nocc, nocc, nocc, nvir), dtype=types[float])
    .zeros 96 [0, 0, 0, 1],
    -- 277: x52 += einsum("ia,jkil->jkla", t1, x51)
    .add 96 (.ein [(4, [0, 1]), (95, [2, 3, 0, 4])] [2, 3, 4, 1]) 1 1,
    -- 278: x53 = np.zeros((nocc, nocc, nvir, nvir), dtype=types[float])
    .zeros 97 [0, 0, 1, 1],
    -- 279: x53 -= einsum("ia,jikb->jkba", t1, x52)
    .add 97 (.ein [(4, [0, 1]), (96, [2, 0, 3, 4])] [2, 3, 4, 1]) (-1) 1,
    -- 280: del x52
    .del 96,
    -- 281: x59 += einsum("ijab->ijba", x53)
    .add 57 (.ein [(97, [0, 1, 2, 3])] [0, 1, 3, 2]) 1 1,
    -- 282: del x53
    .del 97,
    -- 283: x61 = np.zeros((nocc, nocc, nvir, nvir), dtype=types[float])
    .zeros 98 [0, 0, 1, 1],
    -- 284: x61 += einsum("ijab,kijl->klab", t2, x51)
    .add 98 (.ein [(6, [0, 1, 2, 3]), (95, [4, 0, 1, 5])] [4, 5, 2, 3]) 1 1,
    -- 285: del x51
    .del 95,
    -- 286: x63 += einsum("ijab->ijba", x61) * -0.5
    .add 60 (.ein [(98, [0, 1, 2, 3])] [0, 1, 3, 2]) (-1) 2,
    -- 287: del x61
    .del 98,
    -- 288: t2new += einsum("ijab->ijab", x63) * -1
    .add 72 (.ein [(60, [0, 1, 2, 3])] [0, 1, 2, 3]) (-1) 1,
    -- 289: t2new += einsum("ijab->jiab", x63)
    .add 72 (.ein [(60, [0, 1, 2, 3])] [1, 0, 2, 3]) 1 1,
    -- 290: del x63
    .del 60,
    -- 291: x55 += einsum("ij->ji", f.oo)
    .add 45 (.ein [(11, [0, 1])] [1, 0]) 1 1,
    -- 292: x56 = np.zeros((nocc, nocc, nvir, nvir), dtype=types[float])
    .zeros 99 [0, 0, 1, 1],
    -- 293: x56 += einsum("ij,jkab->kiab", x55, t2)
    .add 99 (.ein [(45, [0, 1]), (6, [1, 2, 3, 4])] [2, 0, 3, 4]) 1 1,
    -- 294: del x55
    .del 45,
    -- 295: x59 += einsum("ijab->jiba", x56)
    .add 57 (.ein [(99, [0, 1, 2, 3])] [1, 0, 3, 2]) 1 1,
    -- 296: del x56
    .del 99,
    -- 297: t2new += einsum("ijab->ijab", x59)
    .add 72 (.ein [(57, [0, 1, 2, 3])] [0, 1, 2, 3]) 1 1,
    -- 298: t2new -= einsum("ijab->jiab", x59)
    .add 72 (.ein [(57, [0, 1, 2, 3])] [1, 0, 2, 3]) (-1) 1,
    -- 299: del x59
    .del 57,
    -- 300: x60 = np.zeros((nocc, nocc, nvir, nvir), dtype=types[float])
    .zeros 100 [0, 0, 1, 1],
    -- 301: x60 += einsum("ab,ijcb->ijac", f.vv, t2)
    .add 100 (.ein [(13, [0, 1]), (6, [2, 3, 4, 1])] [2, 3, 0, 4]) 1 1,
    -- 302: t2new += einsum("ijab->jiab", x60)
    .add 72 (.ein [(100, [0, 1, 2, 3])] [1, 0, 2, 3]) 1 1,
    -- 303: t2new -= einsum("ijab->jiba", x60)
    .add 72 (.ein [(100, [0, 1, 2, 3])] [1, 0, 3, 2]) (-1) 1,
    -- 304: del x60
    .del 100,
    -- 305: x64 = np.zeros((nocc, nocc, nocc, nocc), dtype=types[float])
    .zeros 101 [0, 0, 0, 0],
    -- 306: x64 += einsum("ijab,klab->ijkl", t2, v.oovv)
    .add 101 (.ein [(6, [0, 1, 2, 3]), (5, [4, 5, 2, 3])] [0, 1, 4, 5]) 1 1,
    -- 307: x66 += einsum("ijkl->lkji", x64) * 0.5
    .add 33 (.ein [(101, [0, 1, 2, 3])] [3, 2, 1, 0]) 1 2,
    -- 308: x67 += einsum("ijkl->lkji", x64) * 0.5000000000000003
    .add 34 (.ein [(101, [0, 1, 2, 3])] [3, 2, 1, 0]) 1 2,
    -- 309: del x64
    .del 101,
    -- 310: x66 += einsum("ijkl->jilk", v.oooo)
    .add 33 (.ein [(19, [0, 1, 2, 3])] [1, 0, 3, 2]) 1 1,
    -- 311: t2new += einsum("ijab,ijkl->lkba", t2, x66) * 0.5
    .add 72 (.ein [(6, [0, 1, 2, 3]), (33, [0, 1, 4, 5])] [5, 4, 3, 2]) 1 2,
    -- 312: del x66
    .del 33,
    -- 313: x67 += einsum("ijkl->jilk", v.oooo)
    .add 34 (.ein [(19, [0, 1, 2, 3])] [1, 0, 3, 2]) 1 1,
    -- 314: x68 = np.zeros((nocc, nocc, nocc, nvir), dtype=types[float])
    .zeros 102 [0, 0, 0, 1],
    -- 315: x68 += einsum("ia,ijkl->lkja", t1, x67)
    .add 102 (.ein [(4, [0, 1]), (34, [0, 2, 3, 4])] [4, 3, 2, 1]) 1 1,
    -- 316: del x67
    .del 34,
    -- 317: x68 += einsum("iajk->kjia", v.ovoo)
    .add 102 (.ein [(20, [0, 1, 2, 3])] [3, 2, 0, 1]) 1 1,
    -- 318: t2new += einsum("ia,jkib->jkab", t1, x68)
    .add 72 (.ein [(4, [0, 1]), (102, [2, 3, 0, 4])] [2, 3, 1, 4]) 1 1,
    -- 319: del x68
    .del 102,
    -- 320: x69 = np.zeros((nbos, nocc, nvir), dtype=types[float])
    .zeros 103 [2, 0, 1],
    -- 321: x69 += einsum("wia,ijab->wjb", u11, v.oovv)
    .add 103 (.ein [(10, [0, 1, 2]), (5, [1, 3, 2, 4])] [0, 3, 4]) 1 1,
    -- 322: x76 = np.zeros((nbos, nocc, nvir), dtype=types[float])
    .zeros 104 [2, 0, 1],
    -- 323: x76 += einsum("wia->wia", x69)
    .add 104 (.ein [(103, [0, 1, 2])] [0, 1, 2]) 1 1,
    -- 324: s2new = np.zeros((nbos, nbos), dtype=types[float])
    .zeros 105 [2, 2],
    -- 325: s2new += einsum("wia,xia->wx", u11, x69)
    .add 105 (.ein [(10, [0, 1, 2]), (103, [3, 1, 2])] [0, 3]) 1 1,
    -- 326: del x69
    .del 103,
    -- 327: x70 = np.zeros((nbos, nbos), dtype=types[float])
    .zeros 106 [2, 2],
    -- 328: x70 += einsum("wia,xia->wx", gc.bov, u11)
    .add 106 (.ein [(25, [0, 1, 2]), (10, [3, 1, 2])] [0, 3]) 1 1,
    -- 329: x74 = np.zeros((nbos, nbos), dtype=types[float])
    .zeros 107 [2, 2],
    -- 330: x74 += einsum("wx->wx", x70)
    .add 107 (.ein [(106, [0, 1])] [0, 1]) 1 1,
    -- 331: del x70
    .del 106,
    -- 332: x71 = np.zeros((nbos, nbos), dtype=types[float])
    .zeros 108 [2, 2],
    -- 333: x71 += einsum("wia,xia->wx", g.bov, u11)
    .add 108 (.ein [(2, [0, 1, 2]), (10, [3, 1, 2])] [0, 3]) 1 1,
    -- 334: x72 = np.zeros((nbos, nbos), dtype=types[float])
    .zeros 109 [2, 2],
    -- 335: x72 += einsum("wx->xw", x71)
    .add 109 (.ein [(108, [0, 1])] [1, 0]) 1 1,
    -- 336: del x71
    .del 108,
    -- 337: x72 += einsum("wx->wx", w)
    .add 109 (.ein [(21, [0, 1])] [0, 1]) 1 1,
    -- 338: x73 = np.zeros((nbos, nbos), dtype=types[float])
    .zeros 110 [2, 2],
    -- 339: x73 += einsum("wx,yw->xy", s2, x72)
    .add 110 (.ein [(15, [0, 1]), (109, [2, 0])] [1, 2]) 1 1,
    -- 340: x74 += einsum("wx->wx", x73)
    .add 107 (.ein [(110, [0, 1])] [0, 1]) 1 1,
    -- 341: del x73
    .del 110,
    -- 342: s2new += einsum("wx->wx", x74)
    .add 105 (.ein [(107, [0, 1])] [0, 1]) 1 1,
    -- 343: s2new += einsum("wx->xw", x74)
    .add 105 (.ein [(107, [0, 1])] [1, 0]) 1 1,
    -- 344: del x74
    .del 107,
    -- 345: u11new += einsum("wx,xia->wia", x72, u11)
    .add 62 (.ein [(109, [0, 1]), (10, [1, 2, 3])] [0, 2, 3]) 1 1,
    -- 346: del x72
    .del 109,
    -- 347: x75 = np.zeros((nbos, nocc, nvir), dtype=types[float])
    .zeros 111 [2, 0, 1],
    -- 348: x75 += einsum("wx,xia->wia", s2, g.bov)
    .add 111 (.ein [(15, [0, 1]), (2, [1, 2, 3])] [0, 2, 3]) 1 1,
    -- 349: x76 += einsum("wia->wia", x75)
    .add 104 (.ein [(111, [0, 1, 2])] [0, 1, 2]) 1 1,
    -- 350: del x75
    .del 111,
    -- 351: x76 += einsum("wia->wia", gc.bov)
    .add 104 (.ein [(25, [0, 1, 2])] [0, 1, 2]) 1 1,
    -- 352: x79 = np.zeros((nbos, nocc, nocc), dtype=types[float])
    .zeros 112 [2, 0, 0],
    -- 353: x79 += einsum("ia,wja->wji", t1, x76)
    .add 112 (.ein [(4, [0, 1]), (104, [2, 3, 1])] [2, 3, 0]) 1 1,
    -- 354: u11new += einsum("wia,ijab->wjb", x76, t2)
    .add 62 (.ein [(104, [0, 1, 2]), (6, [1, 3, 2, 4])] [0, 3, 4]) 1 1,
    -- 355: del x76
    .del 104,
    -- 356: x77 += einsum("ab->ab", f.vv) * -1
    .add 41 (.ein [(13, [0, 1])] [0, 1]) (-1) 1,
    -- 357: u11new += einsum("ab,wib->wia", x77, u11) * -1
    .add 62 (.ein [(41, [0, 1]), (10, [2, 3, 1])] [2, 3, 0]) (-1) 1,
    -- 358: del x77
    .del 41,
    -- 359: x78 += einsum("ia->ia", f.ov)
    .add 39 (.ein [(9, [0, 1])] [0, 1]) 1 1,
    -- 360: x79 += einsum("ia,wja->wij", x78, u11)
    .add 112 (.ein [(39, [0, 1]), (10, [2, 3, 1])] [2, 0, 3]) 1 1,
    -- 361: del x78
    .del 39,
    -- 362: x79 += einsum("wij->wij", gc.boo)
    .add 112 (.ein [(24, [0, 1, 2])] [0, 1, 2]) 1 1,
    -- 363: x79 += einsum("wx,xij->wij", s2, g.boo)
    .add 112 (.ein [(15, [0, 1]), (0, [1, 2, 3])] [0, 2, 3]) 1 1,
    -- 364: x79 -= einsum("wia,ijka->wjk", u11, v.ooov)
    .add 112 (.ein [(10, [0, 1, 2]), (7, [1, 3, 4, 2])] [0, 3, 4]) (-1) 1,
    -- 365: u11new -= einsum("ia,wij->wja", t1, x79)
    .add 62 (.ein [(4, [0, 1]), (112, [2, 0, 3])] [2, 3, 1]) (-1) 1,
    -- 366: del x79
    .del 112,
    -- 367: x80 = np.zeros((nbos, nvir, nvir), dtype=types[float])
    .zeros 113 [2, 1, 1],
    -- 368: x80 += einsum("wab->wab", gc.bvv)
    .add 113 (.ein [(27, [0, 1, 2])] [0, 1, 2]) 1 1,
    -- 369: x80 += einsum("wx,xab->wab", s2, g.bvv)
    .add 113 (.ein [(15, [0, 1]), (3, [1, 2, 3])] [0, 2, 3]) 1 1,
    -- 370: x80 += einsum("wia,ibac->wbc", u11, v.ovvv)
    .add 113 (.ein [(10, [0, 1, 2]), (12, [1, 3, 2, 4])] [0, 3, 4]) 1 1,
    -- 371: u11new += einsum("ia,wba->wib", t1, x80)
    .add 62 (.ein [(4, [0, 1]), (113, [2, 3, 1])] [2, 0, 3]) 1 1,
    -- 372: del x80
    .del 113,
    -- 373: t1new += einsum("w,wai->ia", s1, g.bvo)
    .add 35 (.ein [(8, [0]), (1, [0, 1, 2])] [2, 1]) 1 1,
    -- 374: t1new += einsum("ijab,jcab->ic", t2, v.ovvv) * -0.5
    .add 35 (.ein [(6, [0, 1, 2, 3]), (12, [1, 4, 2, 3])] [0, 4]) (-1) 2,
    -- 375: t1new -= einsum("ia,ibja->jb", t1, v.ovov)
    .add 35 (.ein [(4, [0, 1]), (17, [0, 2, 3, 1])] [3, 2]) (-1) 1,
    -- 376: t1new += einsum("ai->ia", f.vo)
    .add 35 (.ein [(22, [0, 1])] [1, 0]) 1 1,
    -- 377: t1new += einsum("wab,wib->ia", g.bvv, u11)
    .add 35 (.ein [(3, [0, 1, 2]), (10, [0, 3, 2])] [3, 1]) 1 1,
    -- 378: t2new -= einsum("ia,ibjk->kjba", t1, v.ovoo)
    .add 72 (.ein [(4, [0, 1]), (20, [0, 2, 3, 4])] [4, 3, 2, 1]) (-1) 1,
    -- 379: t2new += einsum("abij->jiba", v.vvoo)
    .add 72 (.ein [(23, [0, 1, 2, 3])] [3, 2, 1, 0]) 1 1,
    -- 380: t2new += einsum("ijab,cdab->jidc", t2, v.vvvv) * 0.5
    .add 72 (.ein [(6, [0, 1, 2, 3]), (16, [4, 5, 2, 3])] [1, 0, 5, 4]) 1 2,
    -- 381: s1new += einsum("w,xw->x", s1, w)
    .add 46 (.ein [(8, [0]), (21, [1, 0])] [1]) 1 1,
    -- 382: s1new += einsum("w->w", G)
    .add 46 (.ein [(14, [0])] [0]) 1 1,
    -- 383: s1new += einsum("ia,wia->w", t1, gc.bov)
    .add 46 (.ein [(4, [0, 1]), (25, [2, 0, 1])] [2]) 1 1,
    -- 384: u11new += einsum("wx,xai->wia", s2, g.bvo)
    .add 62 (.ein [(15, [0, 1]), (1, [1, 2, 3])] [0, 3, 2]) 1 1,
    -- 385: u11new -= einsum("wia,ibja->wjb", u11, v.ovov)
    .add 62 (.ein [(10, [0, 1, 2]), (17, [1, 3, 4, 2])] [0, 4, 3]) (-1) 1,
    -- 386: u11new += einsum("wai->wia", gc.bvo)
    .add 62 (.ein [(26, [0, 1, 2])] [0, 2, 1]) 1 1
  ]
  ret := [(chars! "t1new", 35), (chars! "t2new", 72), (chars! "s1new", 46), (chars! "s2new", 105), (chars! "u11new", 62)]

/-- codegen/GCCSD_SD_1_1.py:390-987 `update_lams`. -/
def update_lams : GenFun where
  args := [chars! "g.boo", chars! "g.bvo", chars! "g.bov", chars! "g.bvv", chars! "t1", chars! "l2", chars! "v.ooov", chars! "t2", chars! "v.ovov", chars! "v.ovvv", chars! "v.oovv", chars! "f.ov", chars! "l1", chars! "s1", chars! "u11", chars! "ls1", chars! "v.oooo", chars! "v.ovoo", chars! "v.vvov", chars! "v.vvvv", chars! "f.oo", chars! "f.vv", chars! "G", chars! "f.vo", chars! "lu11", chars! "s2", chars! "w", chars! "ls2"]
  body := [
    -- 392: gc = Namespace(
    .set 28 (.tr 0 [0, 2, 1]) 1 1,
    .set 29 (.tr 1 [0, 2, 1]) 1 1,
    .set 30 (.tr 2 [0, 2, 1]) 1 1,
    .set 31 (.tr 3 [0, 2, 1]) 1 1,
    -- 400: x0 = np.zeros((nocc, nocc, nocc, nvir), dtype=types[float])
    .zeros 32 [0, 0, 0, 1],
    -- 401: x0 += einsum("ia,bajk->jkib", t1, l2)
    .add 32 (.ein [(4, [0, 1]), (5, [2, 1, 3, 4])] [3, 4, 0, 2]) 1 1,
    -- 402: x5 = np.zeros((nocc, nocc, nocc, nocc), dtype=types[float])
    .zeros 33 [0, 0, 0, 0],
    -- 403: x5 += einsum("ia,jkla->jkil", t1, x0)
    .add 33 (.ein [(4, [0, 1]), (32, [2, 3, 4, 1])] [2, 3, 0, 4]) 1 1,
    -- 404: x18 = np.zeros((nocc, nocc, nocc, nocc), dtype=types[float])
    .zeros 34 [0, 0, 0, 0],
    -- 405: x18 += einsum("ijkl->ijlk", x5) * 2.0000000000000013
    .add 34 (.ein [(33, [0, 1, 2, 3])] [0, 1, 3, 2]) 2 1,
    -- 406: x121 = np.zeros((nocc, nocc, nocc, nocc), dtype=types[float])
    .zeros 35 [0, 0, 0, 0],
    -- 407: x121 += einsum("ijkl->ijlk", x5) * 2
    .add 35 (.ein [(33, [0, 1, 2, 3])] [0, 1, 3, 2]) 2 1,
    -- 408: l1new = np.zeros((nvir, nocc), dtype=types[float])
    .zeros 36 [1, 0],
    -- 409: l1new += einsum("ijka,lkji->al", v.ooov, x5) * 0.5
    .add 36 (.ein [(6, [0, 1, 2, 3]), (33, [4, 2, 1, 0])] [3, 4]) 1 2,
    -- 410: del x5
    .del 33,
    -- 411: x19 = np.zeros((nocc, nocc, nocc, nvir), dtype=types[float])
    .zeros 37 [0, 0, 0, 1],
    -- 412: x19 += einsum("ijab,kjlb->kila", t2, x0) * -4
    .add 37 (.ein [(7, [0, 1, 2, 3]), (32, [4, 1, 5, 3])] [4, 0, 5, 2]) (-4) 1,
    -- 413: x49 = np.zeros((nocc, nvir), dtype=types[float])
    .zeros 38 [0, 1],
    -- 414: x49 += einsum("ijab,ijka->kb", t2, x0)
    .add 38 (.ein [(7, [0, 1, 2, 3]), (32, [0, 1, 4, 2])] [4, 3]) 1 1,
    -- 415: x53 = np.zeros((nocc, nvir), dtype=types[float])
    .zeros 39 [0, 1],
    -- 416: x53 += einsum("ia->ia", x49) * 0.5
    .add 39 (.ein [(38, [0, 1])] [0, 1]) 1 2,
    -- 417: del x49
    .del 38,
    -- 418: x95 = np.zeros((nocc, nocc, nvir, nvir), dtype=types[float])
    .zeros 40 [0, 0, 1, 1],
    -- 419: x95 -= einsum("ijka,kljb->liba", v.ooov, x0)
    .add 40 (.ein [(6, [0, 1, 2, 3]), (32, [2, 4, 1, 5])] [4, 0, 5, 3]) (-1) 1,
    -- 420: x102 = np.zeros((nocc, nocc, nvir, nvir), dtype=types[float])
    .zeros 41 [0, 0, 1, 1],
    -- 421: x102 += einsum("ijab->ijab", x95)
    .add 41 (.ein [(40, [0, 1, 2, 3])] [0, 1, 2, 3]) 1 1,
    -- 422: del x95
    .del 40,
    -- 423: l1new -= einsum("iajb,kjia->bk", v.ovov, x0)
    .add 36 (.ein [(8, [0, 1, 2, 3]), (32, [4, 2, 0, 1])] [3, 4]) (-1) 1,
    -- 424: l2new = np.zeros((nvir, nvir, nocc, nocc), dtype=types[float])
    .zeros 42 [1, 1, 0, 0],
    -- 425: l2new += einsum("iabc,jkia->cbkj", v.ovvv, x0)
    .add 42 (.ein [(9, [0, 1, 2, 3]), (32, [4, 5, 0, 1])] [3, 2, 5, 4]) 1 1,
    -- 426: x1 = np.zeros((nocc, nocc), dtype=types[float])
    .zeros 43 [0, 0],
    -- 427: x1 -= einsum("abij,jkab->ik", l2, t2)
    .add 43 (.ein [(5, [0, 1, 2, 3]), (7, [3, 4, 0, 1])] [2, 4]) (-1) 1,
    -- 428: x19 += einsum("ia,jk->jika", t1, x1) * 2
    .add 37 (.ein [(4, [0, 1]), (43, [2, 3])] [2, 0, 3, 1]) 2 1,
    -- 429: x51 = np.zeros((nocc, nocc), dtype=types[float])
    .zeros 44 [0, 0],
    -- 430: x51 += einsum("ij->ij", x1)
    .add 44 (.ein [(43, [0, 1])] [0, 1]) 1 1,
    -- 431: x63 = np.zeros((nocc, nocc), dtype=types[float])
    .zeros 45 [0, 0],
    -- 432: x63 += einsum("ij->ij", x1) * 0.5
    .add 45 (.ein [(43, [0, 1])] [0, 1]) 1 2,
    -- 433: x66 = np.zeros((nocc, nocc), dtype=types[float])
    .zeros 46 [0, 0],
    -- 434: x66 += einsum("ij->ij", x1) * 0.5
    .add 46 (.ein [(43, [0, 1])] [0, 1]) 1 2,
    -- 435: x103 = np.zeros((nocc, nocc, nvir, nvir), dtype=types[float])
    .zeros 47 [0, 0, 1, 1],
    -- 436: x103 -= einsum("ij,kjab->ikab", x1, v.oovv)
    .add 47 (.ein [(43, [0, 1]), (10, [2, 1, 3, 4])] [0, 2, 3, 4]) (-1) 1,
    -- 437: x105 = np.zeros((nocc, nocc, nvir, nvir), dtype=types[float])
    .zeros 48 [0, 0, 1, 1],
    -- 438: x105 += einsum("ijab->ijba", x103) * -0.5
    .add 48 (.ein [(47, [0, 1, 2, 3])] [0, 1, 3, 2]) (-1) 2,
    -- 439: del x103
    .del 47,
    -- 440: x123 = np.zeros((nocc, nocc), dtype=types[float])
    .zeros 49 [0, 0],
    -- 441: x123 += einsum("ij->ij", x1)
    .add 49 (.ein [(43, [0, 1])] [0, 1]) 1 1,
    -- 442: l1new += einsum("ia,ji->aj", f.ov, x1) * -0.5
    .add 36 (.ein [(11, [0, 1]), (43, [2, 0])] [1, 2]) (-1) 2,
    -- 443: del x1
    .del 43,
    -- 444: x2 = np.zeros((nocc, nocc), dtype=types[float])
    .zeros 50 [0, 0],
    -- 445: x2 += einsum("ai,ja->ij", l1, t1)
    .add 50 (.ein [(12, [0, 1]), (4, [2, 0])] [1, 2]) 1 1,
    -- 446: x51 += einsum("ij->ij", x2) * 2
    .add 44 (.ein [(50, [0, 1])] [0, 1]) 2 1,
    -- 447: x63 += einsum("ij->ij", x2)
    .add 45 (.ein [(50, [0, 1])] [0, 1]) 1 1,
    -- 448: x77 = np.zeros((nocc, nocc), dtype=types[float])
    .zeros 51 [0, 0],
    -- 449: x77 += einsum("ij->ij", x2)
    .add 51 (.ein [(50, [0, 1])] [0, 1]) 1 1,
    -- 450: ls1new = np.zeros((nbos), dtype=types[float])
    .zeros 52 [2],
    -- 451: ls1new -= einsum("ij,wji->w", x2, g.boo)
    .add 52 (.ein [(50, [0, 1]), (0, [2, 1, 0])] [2]) (-1) 1,
    -- 452: x3 = np.zeros((nocc, nvir), dtype=types[float])
    .zeros 53 [0, 1],
    -- 453: x3 += einsum("w,wia->ia", s1, g.bov)
    .add 53 (.ein [(13, [0]), (2, [0, 1, 2])] [1, 2]) 1 1,
    -- 454: x12 = np.zeros((nocc, nvir), dtype=types[float])
    .zeros 54 [0, 1],
    -- 455: x12 += einsum("ia->ia", x3)
    .add 54 (.ein [(53, [0, 1])] [0, 1]) 1 1,
    -- 456: x58 = np.zeros((nocc, nvir), dtype=types[float])
    .zeros 55 [0, 1],
    -- 457: x58 += einsum("ia->ia", x3)
    .add 55 (.ein [(53, [0, 1])] [0, 1]) 1 1,
    -- 458: x84 = np.zeros((nocc, nvir), dtype=types[float])
    .zeros 56 [0, 1],
    -- 459: x84 += einsum("ia->ia", x3)
    .add 56 (.ein [(53, [0, 1])] [0, 1]) 1 1,
    -- 460: l1new -= einsum("ij,ja->ai", x2, x3)
    .add 36 (.ein [(50, [0, 1]), (53, [1, 2])] [2, 0]) (-1) 1,
    -- 461: del x2
    .del 50,
    -- 462: del x3
    .del 53,
    -- 463: x4 = np.zeros((nocc, nocc, nocc, nocc), dtype=types[float])
    .zeros 57 [0, 0, 0, 0],
    -- 464: x4 += einsum("abij,klab->ijkl", l2, t2)
    .add 57 (.ein [(5, [0, 1, 2, 3]), (7, [4, 5, 0, 1])] [2, 3, 4, 5]) 1 1,
    -- 465: x18 += einsum("ijkl->jilk", x4) * -1
    .add 34 (.ein [(57, [0, 1, 2, 3])] [1, 0, 3, 2]) (-1) 1,
    -- 466: x19 += einsum("ia,ijkl->jlka", t1, x18) * -1
    .add 37 (.ein [(4, [0, 1]), (34, [0, 2, 3, 4])] [2, 4, 3, 1]) (-1) 1,
    -- 467: del x18
    .del 34,
    -- 468: x121 += einsum("ijkl->jilk", x4) * -1
    .add 35 (.ein [(57, [0, 1, 2, 3])] [1, 0, 3, 2]) (-1) 1,
    -- 469: l2new += einsum("ijab,klij->balk", v.oovv, x121) * -0.25
    .add 42 (.ein [(10, [0, 1, 2, 3]), (35, [4, 5, 0, 1])] [3, 2, 5, 4]) (-1) 4,
    -- 470: del x121
    .del 35,
    -- 471: l1new += einsum("ijka,lkij->al", v.ooov, x4) * -0.25
    .add 36 (.ein [(6, [0, 1, 2, 3]), (57, [4, 2, 0, 1])] [3, 4]) (-1) 4,
    -- 472: del x4
    .del 57,
    -- 473: x6 = np.zeros((nocc, nocc, nvir, nvir), dtype=types[float])
    .zeros 58 [0, 0, 1, 1],
    -- 474: x6 += einsum("abij,jkbc->ikac", l2, t2)
    .add 58 (.ein [(5, [0, 1, 2, 3]), (7, [3, 4, 1, 5])] [2, 4, 0, 5]) 1 1,
    -- 475: l1new -= einsum("iabc,jiac->bj", v.ovvv, x6)
    .add 36 (.ein [(9, [0, 1, 2, 3]), (58, [4, 0, 1, 3])] [2, 4]) (-1) 1,
    -- 476: del x6
    .del 58,
    -- 477: x7 = np.zeros((nocc, nocc, nvir, nvir), dtype=types[float])
    .zeros 59 [0, 0, 1, 1],
    -- 478: x7 += einsum("ia,jbca->ijbc", t1, v.ovvv)
    .add 59 (.ein [(4, [0, 1]), (9, [2, 3, 4, 1])] [0, 2, 3, 4]) 1 1,
    -- 479: x16 = np.zeros((nocc, nocc, nvir, nvir), dtype=types[float])
    .zeros 60 [0, 0, 1, 1],
    -- 480: x16 += einsum("ijab->jiab", x7) * -0.5
    .add 60 (.ein [(59, [0, 1, 2, 3])] [1, 0, 2, 3]) (-1) 2,
    -- 481: x98 = np.zeros((nocc, nocc, nvir, nvir), dtype=types[float])
    .zeros 61 [0, 0, 1, 1],
    -- 482: x98 += einsum("ijab->ijab", x7)
    .add 61 (.ein [(59, [0, 1, 2, 3])] [0, 1, 2, 3]) 1 1,
    -- 483: l1new += einsum("ijka,jkab->bi", x0, x7)
    .add 36 (.ein [(32, [0, 1, 2, 3]), (59, [1, 2, 3, 4])] [4, 0]) 1 1,
    -- 484: del x7
    .del 59,
    -- 485: x8 = np.zeros((nbos, nocc, nvir), dtype=types[float])
    .zeros 62 [2, 0, 1],
    -- 486: x8 -= einsum("wia,abji->wjb", u11, l2)
    .add 62 (.ein [(14, [0, 1, 2]), (5, [2, 3, 4, 1])] [0, 4, 3]) (-1) 1,
    -- 487: x65 = np.zeros((nbos, nocc, nvir), dtype=types[float])
    .zeros 63 [2, 0, 1],
    -- 488: x65 += einsum("wia->wia", x8)
    .add 63 (.ein [(62, [0, 1, 2])] [0, 1, 2]) 1 1,
    -- 489: x100 = np.zeros((nbos, nocc, nvir), dtype=types[float])
    .zeros 64 [2, 0, 1],
    -- 490: x100 += einsum("wia->wia", x8)
    .add 64 (.ein [(62, [0, 1, 2])] [0, 1, 2]) 1 1,
    -- 491: l1new += einsum("wab,wia->bi", g.bvv, x8)
    .add 36 (.ein [(3, [0, 1, 2]), (62, [0, 3, 1])] [2, 3]) 1 1,
    -- 492: x9 = np.zeros((nocc, nocc, nocc, nvir), dtype=types[float])
    .zeros 65 [0, 0, 0, 1],
    -- 493: x9 += einsum("ia,jkba->ijkb", t1, v.oovv)
    .add 65 (.ein [(4, [0, 1]), (10, [2, 3, 4, 1])] [0, 2, 3, 4]) 1 1,
    -- 494: x10 = np.zeros((nocc, nocc, nocc, nvir), dtype=types[float])
    .zeros 66 [0, 0, 0, 1],
    -- 495: x10 += einsum("ijka->ikja", x9) * -1
    .add 66 (.ein [(65, [0, 1, 2, 3])] [0, 2, 1, 3]) (-1) 1,
    -- 496: x14 = np.zeros((nocc, nocc, nocc, nvir), dtype=types[float])
    .zeros 67 [0, 0, 0, 1],
    -- 497: x14 += einsum("ijka->kjia", x9) * 0.5000000000000003
    .add 67 (.ein [(65, [0, 1, 2, 3])] [2, 1, 0, 3]) 1 2,
    -- 498: x96 = np.zeros((nocc, nocc, nvir, nvir), dtype=types[float])
    .zeros 68 [0, 0, 1, 1],
    -- 499: x96 += einsum("ijka,jlkb->ilab", x0, x9)
    .add 68 (.ein [(32, [0, 1, 2, 3]), (65, [1, 4, 2, 5])] [0, 4, 3, 5]) 1 1,
    -- 500: x102 -= einsum("ijab->ijab", x96)
    .add 41 (.ein [(68, [0, 1, 2, 3])] [0, 1, 2, 3]) (-1) 1,
    -- 501: del x96
    .del 68,
    -- 502: x110 = np.zeros((nocc, nocc, nvir, nvir), dtype=types[float])
    .zeros 69 [0, 0, 1, 1],
    -- 503: x110 -= einsum("ai,ijkb->kjab", l1, x9)
    .add 69 (.ein [(12, [0, 1]), (65, [1, 2, 3, 4])] [3, 2, 0, 4]) (-1) 1,
    -- 504: x118 = np.zeros((nocc, nocc, nvir, nvir), dtype=types[float])
    .zeros 70 [0, 0, 1, 1],
    -- 505: x118 += einsum("ijab->ijab", x110)
    .add 70 (.ein [(69, [0, 1, 2, 3])] [0, 1, 2, 3]) 1 1,
    -- 506: del x110
    .del 69,
    -- 507: x119 = np.zeros((nocc, nocc, nocc, nvir), dtype=types[float])
    .zeros 71 [0, 0, 0, 1],
    -- 508: x119 += einsum("ijka->kjia", x9) * 0.5
    .add 71 (.ein [(65, [0, 1, 2, 3])] [2, 1, 0, 3]) 1 2,
    -- 509: del x9
    .del 65,
    -- 510: x10 += einsum("ijka->kjia", v.ooov)
    .add 66 (.ein [(6, [0, 1, 2, 3])] [2, 1, 0, 3]) 1 1,
    -- 511: x17 = np.zeros((nocc, nocc, nocc, nvir), dtype=types[float])
    .zeros 72 [0, 0, 0, 1],
    -- 512: x17 += einsum("ijab,kila->ljkb", t2, x10)
    .add 72 (.ein [(7, [0, 1, 2, 3]), (66, [4, 0, 5, 2])] [5, 1, 4, 3]) 1 1,
    -- 513: x25 = np.zeros((nocc, nvir), dtype=types[float])
    .zeros 73 [0, 1],
    -- 514: x25 += einsum("ijab,kija->kb", t2, x10) * 0.5
    .add 73 (.ein [(7, [0, 1, 2, 3]), (66, [4, 0, 1, 2])] [4, 3]) 1 2,
    -- 515: del x10
    .del 66,
    -- 516: x44 = np.zeros((nocc, nvir), dtype=types[float])
    .zeros 74 [0, 1],
    -- 517: x44 += einsum("ia->ia", x25)
    .add 74 (.ein [(73, [0, 1])] [0, 1]) 1 1,
    -- 518: del x25
    .del 73,
    -- 519: x11 = np.zeros((nocc, nvir), dtype=types[float])
    .zeros 75 [0, 1],
    -- 520: x11 -= einsum("ia,ijba->jb", t1, v.oovv)
    .add 75 (.ein [(4, [0, 1]), (10, [0, 2, 3, 1])] [2, 3]) (-1) 1,
    -- 521: x12 += einsum("ia->ia", x11)
    .add 54 (.ein [(75, [0, 1])] [0, 1]) 1 1,
    -- 522: x58 += einsum("ia->ia", x11)
    .add 55 (.ein [(75, [0, 1])] [0, 1]) 1 1,
    -- 523: x78 = np.zeros((nocc, nvir), dtype=types[float])
    .zeros 76 [0, 1],
    -- 524: x78 += einsum("ia->ia", x11)
    .add 76 (.ein [(75, [0, 1])] [0, 1]) 1 1,
    -- 525: x89 = np.zeros((nocc, nocc), dtype=types[float])
    .zeros 77 [0, 0],
    -- 526: x89 += einsum("ia,ja->ij", t1, x11)
    .add 77 (.ein [(4, [0, 1]), (75, [2, 1])] [0, 2]) 1 1,
    -- 527: x90 = np.zeros((nocc, nocc), dtype=types[float])
    .zeros 78 [0, 0],
    -- 528: x90 += einsum("ij->ji", x89)
    .add 78 (.ein [(77, [0, 1])] [1, 0]) 1 1,
    -- 529: del x89
    .del 77,
    -- 530: x102 += einsum("ai,jb->ijab", l1, x11)
    .add 41 (.ein [(12, [0, 1]), (75, [2, 3])] [1, 2, 0, 3]) 1 1,
    -- 531: x113 = np.zeros((nocc, nocc, nvir, nvir), dtype=types[float])
    .zeros 79 [0, 0, 1, 1],
    -- 532: x113 -= einsum("ia,jkib->kjba", x11, x0)
    .add 79 (.ein [(75, [0, 1]), (32, [2, 3, 0, 4])] [3, 2, 4, 1]) (-1) 1,
    -- 533: del x11
    .del 75,
    -- 534: x118 -= einsum("ijab->ijab", x113)
    .add 70 (.ein [(79, [0, 1, 2, 3])] [0, 1, 2, 3]) (-1) 1,
    -- 535: del x113
    .del 79,
    -- 536: x12 += einsum("ia->ia", f.ov)
    .add 54 (.ein [(11, [0, 1])] [0, 1]) 1 1,
    -- 537: x17 += einsum("ia,jkab->ikjb", x12, t2) * 0.5
    .add 72 (.ein [(54, [0, 1]), (7, [2, 3, 1, 4])] [0, 3, 2, 4]) 1 2,
    -- 538: x26 = np.zeros((nocc, nvir), dtype=types[float])
    .zeros 80 [0, 1],
    -- 539: x26 += einsum("ia,ijab->jb", x12, t2)
    .add 80 (.ein [(54, [0, 1]), (7, [0, 2, 1, 3])] [2, 3]) 1 1,
    -- 540: x44 += einsum("ia->ia", x26) * -1
    .add 74 (.ein [(80, [0, 1])] [0, 1]) (-1) 1,
    -- 541: del x26
    .del 80,
    -- 542: x34 = np.zeros((nocc, nocc), dtype=types[float])
    .zeros 81 [0, 0],
    -- 543: x34 += einsum("ia,ja->ij", t1, x12)
    .add 81 (.ein [(4, [0, 1]), (54, [2, 1])] [0, 2]) 1 1,
    -- 544: x35 = np.zeros((nocc, nocc), dtype=types[float])
    .zeros 82 [0, 0],
    -- 545: x35 += einsum("ij->ji", x34)
    .add 82 (.ein [(81, [0, 1])] [1, 0]) 1 1,
    -- 546: del x34
    .del 81,
    -- 547: lu11new = np.zeros((nbos, nvir, nocc), dtype=types[float])
    .zeros 83 [2, 1, 0],
    -- 548: lu11new += einsum("w,ia->wai", ls1, x12) * 2
    .add 83 (.ein [(15, [0]), (54, [1, 2])] [0, 2, 1]) 2 1,
    -- 549: del x12
    .del 54,
    -- 550: x13 = np.zeros((nocc, nocc, nocc, nocc), dtype=types[float])
    .zeros 84 [0, 0, 0, 0],
    -- 551: x13 += einsum("ijab,klab->ijkl", t2, v.oovv)
    .add 84 (.ein [(7, [0, 1, 2, 3]), (10, [4, 5, 2, 3])] [0, 1, 4, 5]) 1 1,
    -- 552: x15 = np.zeros((nocc, nocc, nocc, nocc), dtype=types[float])
    .zeros 85 [0, 0, 0, 0],
    -- 553: x15 += einsum("ijkl->lkji", x13) * -1
    .add 85 (.ein [(84, [0, 1, 2, 3])] [3, 2, 1, 0]) (-1) 1,
    -- 554: x120 = np.zeros((nocc, nocc, nocc, nocc), dtype=types[float])
    .zeros 86 [0, 0, 0, 0],
    -- 555: x120 += einsum("ijkl->lkji", x13) * 0.5
    .add 86 (.ein [(84, [0, 1, 2, 3])] [3, 2, 1, 0]) 1 2,
    -- 556: del x13
    .del 84,
    -- 557: x14 += einsum("ijka->jika", v.ooov) * -1
    .add 67 (.ein [(6, [0, 1, 2, 3])] [1, 0, 2, 3]) (-1) 1,
    -- 558: x15 += einsum("ia,jkla->kjil", t1, x14) * -4
    .add 85 (.ein [(4, [0, 1]), (67, [2, 3, 4, 1])] [3, 2, 0, 4]) (-4) 1,
    -- 559: del x14
    .del 67,
    -- 560: x15 += einsum("ijkl->jilk", v.oooo) * -2
    .add 85 (.ein [(16, [0, 1, 2, 3])] [1, 0, 3, 2]) (-2) 1,
    -- 561: x17 += einsum("ia,ijkl->jlka", t1, x15) * -0.25
    .add 72 (.ein [(4, [0, 1]), (85, [0, 2, 3, 4])] [2, 4, 3, 1]) (-1) 4,
    -- 562: del x15
    .del 85,
    -- 563: x16 += einsum("iajb->ijab", v.ovov)
    .add 60 (.ein [(8, [0, 1, 2, 3])] [0, 2, 1, 3]) 1 1,
    -- 564: x17 += einsum("ia,jkba->jkib", t1, x16) * -1
    .add 72 (.ein [(4, [0, 1]), (60, [2, 3, 4, 1])] [2, 3, 0, 4]) (-1) 1,
    -- 565: del x16
    .del 60,
    -- 566: x17 += einsum("iajk->ikja", v.ovoo) * 0.5
    .add 72 (.ein [(17, [0, 1, 2, 3])] [0, 3, 2, 1]) 1 2,
    -- 567: x17 += einsum("ijab,kcab->kjic", t2, v.ovvv) * 0.25
    .add 72 (.ein [(7, [0, 1, 2, 3]), (9, [4, 5, 2, 3])] [4, 1, 0, 5]) 1 4,
    -- 568: l1new += einsum("abij,kija->bk", l2, x17) * -1
    .add 36 (.ein [(5, [0, 1, 2, 3]), (72, [4, 2, 3, 0])] [1, 4]) (-1) 1,
    -- 569: del x17
    .del 72,
    -- 570: x19 += einsum("ai,jkba->ikjb", l1, t2) * -2
    .add 37 (.ein [(12, [0, 1]), (7, [2, 3, 4, 0])] [1, 3, 2, 4]) (-2) 1,
    -- 571: l1new += einsum("ijab,kija->bk", v.oovv, x19) * -0.25
    .add 36 (.ein [(10, [0, 1, 2, 3]), (37, [4, 0, 1, 2])] [3, 4]) (-1) 4,
    -- 572: del x19
    .del 37,
    -- 573: x20 = np.zeros((nocc, nvir, nvir, nvir), dtype=types[float])
    .zeros 87 [0, 1, 1, 1],
    -- 574: x20 += einsum("abic->ibac", v.vvov) * -1
    .add 87 (.ein [(18, [0, 1, 2, 3])] [2, 1, 0, 3]) (-1) 1,
    -- 575: x20 += einsum("ia,bcda->icbd", t1, v.vvvv)
    .add 87 (.ein [(4, [0, 1]), (19, [2, 3, 4, 1])] [0, 3, 2, 4]) 1 1,
    -- 576: l1new += einsum("abij,iabc->cj", l2, x20) * 0.5
    .add 36 (.ein [(5, [0, 1, 2, 3]), (87, [2, 0, 1, 4])] [4, 3]) 1 2,
    -- 577: del x20
    .del 87,
    -- 578: x21 = np.zeros((nocc, nvir), dtype=types[float])
    .zeros 88 [0, 1],
    -- 579: x21 += einsum("w,wai->ia", s1, g.bvo)
    .add 88 (.ein [(13, [0]), (1, [0, 1, 2])] [2, 1]) 1 1,
    -- 580: x44 += einsum("ia->ia", x21) * -1
    .add 74 (.ein [(88, [0, 1])] [0, 1]) (-1) 1,
    -- 581: del x21
    .del 88,
    -- 582: x22 = np.zeros((nocc, nvir), dtype=types[float])
    .zeros 89 [0, 1],
    -- 583: x22 += einsum("wab,wib->ia", g.bvv, u11)
    .add 89 (.ein [(3, [0, 1, 2]), (14, [0, 3, 2])] [3, 1]) 1 1,
    -- 584: x44 += einsum("ia->ia", x22) * -1
    .add 74 (.ein [(89, [0, 1])] [0, 1]) (-1) 1,
    -- 585: del x22
    .del 89,
    -- 586: x23 = np.zeros((nocc, nvir), dtype=types[float])
    .zeros 90 [0, 1],
    -- 587: x23 += einsum("ia,ibja->jb", t1, v.ovov)
    .add 90 (.ein [(4, [0, 1]), (8, [0, 2, 3, 1])] [3, 2]) 1 1,
    -- 588: x44 += einsum("ia->ia", x23)
    .add 74 (.ein [(90, [0, 1])] [0, 1]) 1 1,
    -- 589: del x23
    .del 90,
    -- 590: x24 = np.zeros((nocc, nvir), dtype=types[float])
    .zeros 91 [0, 1],
    -- 591: x24 -= einsum("ijab,icab->jc", t2, v.ovvv)
    .add 91 (.ein [(7, [0, 1, 2, 3]), (9, [0, 4, 2, 3])] [1, 4]) (-1) 1,
    -- 592: x44 += einsum("ia->ia", x24) * 0.5
    .add 74 (.ein [(91, [0, 1])] [0, 1]) 1 2,
    -- 593: del x24
    .del 91,
    -- 594: x27 = np.zeros((nbos, nocc, nocc), dtype=types[float])
    .zeros 92 [2, 0, 0],
    -- 595: x27 += einsum("ia,wja->wji", t1, g.bov)
    .add 92 (.ein [(4, [0, 1]), (2, [2, 3, 1])] [2, 3, 0]) 1 1,
    -- 596: x28 = np.zeros((nbos, nocc, nocc), dtype=types[float])
    .zeros 93 [2, 0, 0],
    -- 597: x28 += einsum("wij->wij", x27)
    .add 93 (.ein [(92, [0, 1, 2])] [0, 1, 2]) 1 1,
    -- 598: x68 = np.zeros((nbos, nocc, nocc), dtype=types[float])
    .zeros 94 [2, 0, 0],
    -- 599: x68 += einsum("wij->wij", x27)
    .add 94 (.ein [(92, [0, 1, 2])] [0, 1, 2]) 1 1,
    -- 600: del x27
    .del 92,
    -- 601: x28 += einsum("wij->wij", g.boo)
    .add 93 (.ein [(0, [0, 1, 2])] [0, 1, 2]) 1 1,
    -- 602: x29 = np.zeros((nocc, nvir), dtype=types[float])
    .zeros 95 [0, 1],
    -- 603: x29 += einsum("wia,wij->ja", u11, x28)
    .add 95 (.ein [(14, [0, 1, 2]), (93, [0, 1, 3])] [3, 2]) 1 1,
    -- 604: del x28
    .del 93,
    -- 605: x44 += einsum("ia->ia", x29)
    .add 74 (.ein [(95, [0, 1])] [0, 1]) 1 1,
    -- 606: del x29
    .del 95,
    -- 607: x30 = np.zeros((nocc, nocc), dtype=types[float])
    .zeros 96 [0, 0],
    -- 608: x30 += einsum("w,wij->ij", s1, g.boo)
    .add 96 (.ein [(13, [0]), (0, [0, 1, 2])] [1, 2]) 1 1,
    -- 609: x35 += einsum("ij->ij", x30)
    .add 82 (.ein [(96, [0, 1])] [0, 1]) 1 1,
    -- 610: x86 = np.zeros((nocc, nocc), dtype=types[float])
    .zeros 97 [0, 0],
    -- 611: x86 += einsum("ij->ij", x30)
    .add 97 (.ein [(96, [0, 1])] [0, 1]) 1 1,
    -- 612: del x30
    .del 96,
    -- 613: x31 = np.zeros((nocc, nocc), dtype=types[float])
    .zeros 98 [0, 0],
    -- 614: x31 += einsum("wia,wja->ij", g.bov, u11)
    .add 98 (.ein [(2, [0, 1, 2]), (14, [0, 3, 2])] [1, 3]) 1 1,
    -- 615: x35 += einsum("ij->ij", x31)
    .add 82 (.ein [(98, [0, 1])] [0, 1]) 1 1,
    -- 616: x86 += einsum("ij->ij", x31)
    .add 97 (.ein [(98, [0, 1])] [0, 1]) 1 1,
    -- 617: del x31
    .del 98,
    -- 618: x32 = np.zeros((nocc, nocc), dtype=types[float])
    .zeros 99 [0, 0],
    -- 619: x32 -= einsum("ia,ijka->jk", t1, v.ooov)
    .add 99 (.ein [(4, [0, 1]), (6, [0, 2, 3, 1])] [2, 3]) (-1) 1,
    -- 620: x35 += einsum("ij->ij", x32)
    .add 82 (.ein [(99, [0, 1])] [0, 1]) 1 1,
    -- 621: x90 += einsum("ij->ij", x32)
    .add 78 (.ein [(99, [0, 1])] [0, 1]) 1 1,
    -- 622: del x32
    .del 99,
    -- 623: x91 = np.zeros((nocc, nocc, nvir, nvir), dtype=types[float])
    .zeros 100 [0, 0, 1, 1],
    -- 624: x91 += einsum("ij,abjk->kiab", x90, l2)
    .add 100 (.ein [(78, [0, 1]), (5, [2, 3, 1, 4])] [4, 0, 2, 3]) 1 1,
    -- 625: del x90
    .del 78,
    -- 626: x92 = np.zeros((nocc, nocc, nvir, nvir), dtype=types[float])
    .zeros 101 [0, 0, 1, 1],
    -- 627: x92 -= einsum("ijab->ijba", x91)
    .add 101 (.ein [(100, [0, 1, 2, 3])] [0, 1, 3, 2]) (-1) 1,
    -- 628: del x91
    .del 100,
    -- 629: x33 = np.zeros((nocc, nocc), dtype=types[float])
    .zeros 102 [0, 0],
    -- 630: x33 -= einsum("ijab,kiab->jk", t2, v.oovv)
    .add 102 (.ein [(7, [0, 1, 2, 3]), (10, [4, 0, 2, 3])] [1, 4]) (-1) 1,
    -- 631: x35 += einsum("ij->ji", x33) * 0.5
    .add 82 (.ein [(102, [0, 1])] [1, 0]) 1 2,
    -- 632: x104 = np.zeros((nocc, nocc, nvir, nvir), dtype=types[float])
    .zeros 103 [0, 0, 1, 1],
    -- 633: x104 += einsum("ij,abki->kjab", x33, l2)
    .add 103 (.ein [(102, [0, 1]), (5, [2, 3, 4, 0])] [4, 1, 2, 3]) 1 1,
    -- 634: del x33
    .del 102,
    -- 635: x105 += einsum("ijab->ijba", x104) * -0.5
    .add 48 (.ein [(103, [0, 1, 2, 3])] [0, 1, 3, 2]) (-1) 2,
    -- 636: del x104
    .del 103,
    -- 637: l2new += einsum("ijab->abij", x105) * -1
    .add 42 (.ein [(48, [0, 1, 2, 3])] [2, 3, 0, 1]) (-1) 1,
    -- 638: l2new += einsum("ijab->abji", x105)
    .add 42 (.ein [(48, [0, 1, 2, 3])] [2, 3, 1, 0]) 1 1,
    -- 639: del x105
    .del 48,
    -- 640: x35 += einsum("ij->ij", f.oo)
    .add 82 (.ein [(20, [0, 1])] [0, 1]) 1 1,
    -- 641: x36 = np.zeros((nocc, nvir), dtype=types[float])
    .zeros 104 [0, 1],
    -- 642: x36 += einsum("ia,ij->ja", t1, x35)
    .add 104 (.ein [(4, [0, 1]), (82, [0, 2])] [2, 1]) 1 1,
    -- 643: x44 += einsum("ia->ia", x36)
    .add 74 (.ein [(104, [0, 1])] [0, 1]) 1 1,
    -- 644: del x36
    .del 104,
    -- 645: l1new += einsum("ai,ji->aj", l1, x35) * -1
    .add 36 (.ein [(12, [0, 1]), (82, [2, 1])] [0, 2]) (-1) 1,
    -- 646: del x35
    .del 82,
    -- 647: x37 = np.zeros((nvir, nvir), dtype=types[float])
    .zeros 105 [1, 1],
    -- 648: x37 += einsum("w,wab->ab", s1, g.bvv)
    .add 105 (.ein [(13, [0]), (3, [0, 1, 2])] [1, 2]) 1 1,
    -- 649: x39 = np.zeros((nvir, nvir), dtype=types[float])
    .zeros 106 [1, 1],
    -- 650: x39 += einsum("ab->ab", x37)
    .add 106 (.ein [(105, [0, 1])] [0, 1]) 1 1,
    -- 651: x70 = np.zeros((nvir, nvir), dtype=types[float])
    .zeros 107 [1, 1],
    -- 652: x70 += einsum("ab->ab", x37)
    .add 107 (.ein [(105, [0, 1])] [0, 1]) 1 1,
    -- 653: x115 = np.zeros((nvir, nvir), dtype=types[float])
    .zeros 108 [1, 1],
    -- 654: x115 += einsum("ab->ab", x37)
    .add 108 (.ein [(105, [0, 1])] [0, 1]) 1 1,
    -- 655: del x37
    .del 105,
    -- 656: x38 = np.zeros((nvir, nvir), dtype=types[float])
    .zeros 109 [1, 1],
    -- 657: x38 -= einsum("ia,ibac->bc", t1, v.ovvv)
    .add 109 (.ein [(4, [0, 1]), (9, [0, 2, 1, 3])] [2, 3]) (-1) 1,
    -- 658: x39 += einsum("ab->ab", x38) * -1
    .add 106 (.ein [(109, [0, 1])] [0, 1]) (-1) 1,
    -- 659: x70 -= einsum("ab->ab", x38)
    .add 107 (.ein [(109, [0, 1])] [0, 1]) (-1) 1,
    -- 660: x112 = np.zeros((nocc, nocc, nvir, nvir), dtype=types[float])
    .zeros 110 [0, 0, 1, 1],
    -- 661: x112 -= einsum("ab,caij->jicb", x38, l2)
    .add 110 (.ein [(109, [0, 1]), (5, [2, 0, 3, 4])] [4, 3, 2, 1]) (-1) 1,
    -- 662: del x38
    .del 109,
    -- 663: x118 -= einsum("ijab->ijab", x112)
    .add 70 (.ein [(110, [0, 1, 2, 3])] [0, 1, 2, 3]) (-1) 1,
    -- 664: del x112
    .del 110,
    -- 665: x39 += einsum("ab->ab", f.vv)
    .add 106 (.ein [(21, [0, 1])] [0, 1]) 1 1,
    -- 666: x40 = np.zeros((nocc, nvir), dtype=types[float])
    .zeros 111 [0, 1],
    -- 667: x40 += einsum("ia,ba->ib", t1, x39)
    .add 111 (.ein [(4, [0, 1]), (106, [2, 1])] [0, 2]) 1 1,
    -- 668: del x39
    .del 106,
    -- 669: x44 += einsum("ia->ia", x40) * -1
    .add 74 (.ein [(111, [0, 1])] [0, 1]) (-1) 1,
    -- 670: del x40
    .del 111,
    -- 671: x41 = np.zeros((nbos), dtype=types[float])
    .zeros 112 [2],
    -- 672: x41 += einsum("ia,wia->w", t1, g.bov)
    .add 112 (.ein [(4, [0, 1]), (2, [2, 0, 1])] [2]) 1 1,
    -- 673: x42 = np.zeros((nbos), dtype=types[float])
    .zeros 113 [2],
    -- 674: x42 += einsum("w->w", x41)
    .add 113 (.ein [(112, [0])] [0]) 1 1,
    -- 675: x74 = np.zeros((nbos), dtype=types[float])
    .zeros 114 [2],
    -- 676: x74 += einsum("w->w", x41)
    .add 114 (.ein [(112, [0])] [0]) 1 1,
    -- 677: del x41
    .del 112,
    -- 678: x42 += einsum("w->w", G)
    .add 113 (.ein [(22, [0])] [0]) 1 1,
    -- 679: x43 = np.zeros((nocc, nvir), dtype=types[float])
    .zeros 115 [0, 1],
    -- 680: x43 += einsum("w,wia->ia", x42, u11)
    .add 115 (.ein [(113, [0]), (14, [0, 1, 2])] [1, 2]) 1 1,
    -- 681: del x42
    .del 113,
    -- 682: x44 += einsum("ia->ia", x43) * -1
    .add 74 (.ein [(115, [0, 1])] [0, 1]) (-1) 1,
    -- 683: del x43
    .del 115,
    -- 684: x44 += einsum("ai->ia", f.vo) * -1
    .add 74 (.ein [(23, [0, 1])] [1, 0]) (-1) 1,
    -- 685: l1new += einsum("ia,abij->bj", x44, l2) * -1
    .add 36 (.ein [(74, [0, 1]), (5, [1, 2, 0, 3])] [2, 3]) (-1) 1,
    -- 686: ls1new += einsum("ia,wai->w", x44, lu11) * -1
    .add 52 (.ein [(74, [0, 1]), (24, [2, 1, 0])] [2]) (-1) 1,
    -- 687: del x44
    .del 74,
    -- 688: x45 = np.zeros((nocc, nvir), dtype=types[float])
    .zeros 116 [0, 1],
    -- 689: x45 += einsum("w,wia->ia", ls1, u11)
    .add 116 (.ein [(15, [0]), (14, [0, 1, 2])] [1, 2]) 1 1,
    -- 690: x53 += einsum("ia->ia", x45) * -1
    .add 39 (.ein [(116, [0, 1])] [0, 1]) (-1) 1,
    -- 691: del x45
    .del 116,
    -- 692: x46 = np.zeros((nocc, nvir), dtype=types[float])
    .zeros 117 [0, 1],
    -- 693: x46 += einsum("ai,jiba->jb", l1, t2)
    .add 117 (.ein [(12, [0, 1]), (7, [2, 1, 3, 0])] [2, 3]) 1 1,
    -- 694: x53 += einsum("ia->ia", x46) * -1
    .add 39 (.ein [(117, [0, 1])] [0, 1]) (-1) 1,
    -- 695: del x46
    .del 117,
    -- 696: x47 = np.zeros((nbos, nocc, nocc), dtype=types[float])
    .zeros 118 [2, 0, 0],
    -- 697: x47 += einsum("ia,waj->wji", t1, lu11)
    .add 118 (.ein [(4, [0, 1]), (24, [2, 1, 3])] [2, 3, 0]) 1 1,
    -- 698: x48 = np.zeros((nocc, nvir), dtype=types[float])
    .zeros 119 [0, 1],
    -- 699: x48 += einsum("wia,wij->ja", u11, x47)
    .add 119 (.ein [(14, [0, 1, 2]), (118, [0, 1, 3])] [3, 2]) 1 1,
    -- 700: x53 += einsum("ia->ia", x48)
    .add 39 (.ein [(119, [0, 1])] [0, 1]) 1 1,
    -- 701: del x48
    .del 119,
    -- 702: x50 = np.zeros((nocc, nocc), dtype=types[float])
    .zeros 120 [0, 0],
    -- 703: x50 += einsum("wai,wja->ij", lu11, u11)
    .add 120 (.ein [(24, [0, 1, 2]), (14, [0, 3, 1])] [2, 3]) 1 1,
    -- 704: x51 += einsum("ij->ij", x50) * 2
    .add 44 (.ein [(120, [0, 1])] [0, 1]) 2 1,
    -- 705: x52 = np.zeros((nocc, nvir), dtype=types[float])
    .zeros 121 [0, 1],
    -- 706: x52 += einsum("ia,ij->ja", t1, x51) * 0.5
    .add 121 (.ein [(4, [0, 1]), (44, [0, 2])] [2, 1]) 1 2,
    -- 707: del x51
    .del 44,
    -- 708: x53 += einsum("ia->ia", x52)
    .add 39 (.ein [(121, [0, 1])] [0, 1]) 1 1,
    -- 709: del x52
    .del 121,
    -- 710: x63 += einsum("ij->ij", x50)
    .add 45 (.ein [(120, [0, 1])] [0, 1]) 1 1,
    -- 711: l1new += einsum("ij,jkia->ak", x63, v.ooov) * -1
    .add 36 (.ein [(45, [0, 1]), (6, [1, 2, 0, 3])] [3, 2]) (-1) 1,
    -- 712: del x63
    .del 45,
    -- 713: x66 += einsum("ij->ij", x50)
    .add 46 (.ein [(120, [0, 1])] [0, 1]) 1 1,
    -- 714: x67 = np.zeros((nbos, nocc, nocc), dtype=types[float])
    .zeros 122 [2, 0, 0],
    -- 715: x67 += einsum("w,ij->wij", s1, x66)
    .add 122 (.ein [(13, [0]), (46, [1, 2])] [0, 1, 2]) 1 1,
    -- 716: del x66
    .del 46,
    -- 717: x77 += einsum("ij->ij", x50)
    .add 51 (.ein [(120, [0, 1])] [0, 1]) 1 1,
    -- 718: x88 = np.zeros((nocc, nocc, nvir, nvir), dtype=types[float])
    .zeros 123 [0, 0, 1, 1],
    -- 719: x88 += einsum("ij,jkab->kiab", x77, v.oovv)
    .add 123 (.ein [(51, [0, 1]), (10, [1, 2, 3, 4])] [2, 0, 3, 4]) 1 1,
    -- 720: x92 += einsum("ijab->jiba", x88)
    .add 101 (.ein [(123, [0, 1, 2, 3])] [1, 0, 3, 2]) 1 1,
    -- 721: del x88
    .del 123,
    -- 722: x123 += einsum("ij->ij", x50) * 2
    .add 49 (.ein [(120, [0, 1])] [0, 1]) 2 1,
    -- 723: del x50
    .del 120,
    -- 724: ls1new += einsum("ij,wji->w", x123, g.boo) * -0.5
    .add 52 (.ein [(49, [0, 1]), (0, [2, 1, 0])] [2]) (-1) 2,
    -- 725: del x123
    .del 49,
    -- 726: x53 += einsum("ia->ia", t1) * -1
    .add 39 (.ein [(4, [0, 1])] [0, 1]) (-1) 1,
    -- 727: l1new += einsum("ia,ijab->bj", x53, v.oovv) * -1
    .add 36 (.ein [(39, [0, 1]), (10, [0, 2, 1, 3])] [3, 2]) (-1) 1,
    -- 728: ls1new += einsum("ia,wia->w", x53, g.bov) * -1
    .add 52 (.ein [(39, [0, 1]), (2, [2, 0, 1])] [2]) (-1) 1,
    -- 729: del x53
    .del 39,
    -- 730: x54 = np.zeros((nvir, nvir), dtype=types[float])
    .zeros 124 [1, 1],
    -- 731: x54 += einsum("ai,ib->ab", l1, t1)
    .add 124 (.ein [(12, [0, 1]), (4, [1, 2])] [0, 2]) 1 1,
    -- 732: x57 = np.zeros((nvir, nvir), dtype=types[float])
    .zeros 125 [1, 1],
    -- 733: x57 += einsum("ab->ab", x54)
    .add 125 (.ein [(124, [0, 1])] [0, 1]) 1 1,
    -- 734: ls1new += einsum("ab,wab->w", x54, g.bvv)
    .add 52 (.ein [(124, [0, 1]), (3, [2, 0, 1])] [2]) 1 1,
    -- 735: del x54
    .del 124,
    -- 736: x55 = np.zeros((nvir, nvir), dtype=types[float])
    .zeros 126 [1, 1],
    -- 737: x55 += einsum("wai,wib->ab", lu11, u11)
    .add 126 (.ein [(24, [0, 1, 2]), (14, [0, 2, 3])] [1, 3]) 1 1,
    -- 738: x57 += einsum("ab->ab", x55)
    .add 125 (.ein [(126, [0, 1])] [0, 1]) 1 1,
    -- 739: x111 = np.zeros((nocc, nocc, nvir, nvir), dtype=types[float])
    .zeros 127 [0, 0, 1, 1],
    -- 740: x111 -= einsum("ab,ijcb->jiac", x55, v.oovv)
    .add 127 (.ein [(126, [0, 1]), (10, [2, 3, 4, 1])] [3, 2, 0, 4]) (-1) 1,
    -- 741: x118 += einsum("ijab->ijab", x111)
    .add 70 (.ein [(127, [0, 1, 2, 3])] [0, 1, 2, 3]) 1 1,
    -- 742: del x111
    .del 127,
    -- 743: x122 = np.zeros((nvir, nvir), dtype=types[float])
    .zeros 128 [1, 1],
    -- 744: x122 += einsum("ab->ab", x55)
    .add 128 (.ein [(126, [0, 1])] [0, 1]) 1 1,
    -- 745: del x55
    .del 126,
    -- 746: x56 = np.zeros((nvir, nvir), dtype=types[float])
    .zeros 129 [1, 1],
    -- 747: x56 -= einsum("abij,ijbc->ac", l2, t2)
    .add 129 (.ein [(5, [0, 1, 2, 3]), (7, [2, 3, 1, 4])] [0, 4]) (-1) 1,
    -- 748: x57 += einsum("ab->ab", x56) * 0.5
    .add 125 (.ein [(129, [0, 1])] [0, 1]) 1 2,
    -- 749: l1new += einsum("ab,iabc->ci", x57, v.ovvv) * -1
    .add 36 (.ein [(125, [0, 1]), (9, [2, 0, 1, 3])] [3, 2]) (-1) 1,
    -- 750: del x57
    .del 125,
    -- 751: x108 = np.zeros((nocc, nocc, nvir, nvir), dtype=types[float])
    .zeros 130 [0, 0, 1, 1],
    -- 752: x108 -= einsum("ab,ijcb->ijac", x56, v.oovv)
    .add 130 (.ein [(129, [0, 1]), (10, [2, 3, 4, 1])] [2, 3, 0, 4]) (-1) 1,
    -- 753: x109 = np.zeros((nocc, nocc, nvir, nvir), dtype=types[float])
    .zeros 131 [0, 0, 1, 1],
    -- 754: x109 += einsum("ijab->ijab", x108) * 0.5
    .add 131 (.ein [(130, [0, 1, 2, 3])] [0, 1, 2, 3]) 1 2,
    -- 755: del x108
    .del 130,
    -- 756: x122 += einsum("ab->ab", x56) * 0.5
    .add 128 (.ein [(129, [0, 1])] [0, 1]) 1 2,
    -- 757: del x56
    .del 129,
    -- 758: ls1new += einsum("ab,wab->w", x122, g.bvv)
    .add 52 (.ein [(128, [0, 1]), (3, [2, 0, 1])] [2]) 1 1,
    -- 759: del x122
    .del 128,
    -- 760: x58 += einsum("ia->ia", f.ov)
    .add 55 (.ein [(11, [0, 1])] [0, 1]) 1 1,
    -- 761: x61 = np.zeros((nbos, nocc, nocc), dtype=types[float])
    .zeros 132 [2, 0, 0],
    -- 762: x61 += einsum("ia,wja->wij", x58, u11)
    .add 132 (.ein [(55, [0, 1]), (14, [2, 3, 1])] [2, 0, 3]) 1 1,
    -- 763: x73 = np.zeros((nbos), dtype=types[float])
    .zeros 133 [2],
    -- 764: x73 += einsum("ia,wia->w", x58, u11)
    .add 133 (.ein [(55, [0, 1]), (14, [2, 0, 1])] [2]) 1 1,
    -- 765: del x58
    .del 55,
    -- 766: x76 = np.zeros((nbos), dtype=types[float])
    .zeros 134 [2],
    -- 767: x76 += einsum("w->w", x73)
    .add 134 (.ein [(133, [0])] [0]) 1 1,
    -- 768: del x73
    .del 133,
    -- 769: x59 = np.zeros((nbos, nocc, nvir), dtype=types[float])
    .zeros 135 [2, 0, 1],
    -- 770: x59 += einsum("wia,ijab->wjb", u11, v.oovv)
    .add 135 (.ein [(14, [0, 1, 2]), (10, [1, 3, 2, 4])] [0, 3, 4]) 1 1,
    -- 771: x60 = np.zeros((nbos, nocc, nvir), dtype=types[float])
    .zeros 136 [2, 0, 1],
    -- 772: x60 += einsum("wia->wia", x59)
    .add 136 (.ein [(135, [0, 1, 2])] [0, 1, 2]) 1 1,
    -- 773: x69 = np.zeros((nbos, nocc, nvir), dtype=types[float])
    .zeros 137 [2, 0, 1],
    -- 774: x69 += einsum("wia->wia", x59)
    .add 137 (.ein [(135, [0, 1, 2])] [0, 1, 2]) 1 1,
    -- 775: x94 = np.zeros((nocc, nocc, nvir, nvir), dtype=types[float])
    .zeros 138 [0, 0, 1, 1],
    -- 776: x94 += einsum("wai,wjb->ijab", lu11, x59)
    .add 138 (.ein [(24, [0, 1, 2]), (135, [0, 3, 4])] [2, 3, 1, 4]) 1 1,
    -- 777: del x59
    .del 135,
    -- 778: x102 += einsum("ijab->ijab", x94)
    .add 41 (.ein [(138, [0, 1, 2, 3])] [0, 1, 2, 3]) 1 1,
    -- 779: del x94
    .del 138,
    -- 780: x60 += einsum("wia->wia", gc.bov)
    .add 136 (.ein [(29, [0, 1, 2])] [0, 1, 2]) 1 1,
    -- 781: x60 += einsum("wx,wia->xia", s2, g.bov)
    .add 136 (.ein [(25, [0, 1]), (2, [0, 2, 3])] [1, 2, 3]) 1 1,
    -- 782: x61 += einsum("ia,wja->wji", t1, x60)
    .add 132 (.ein [(4, [0, 1]), (136, [2, 3, 1])] [2, 3, 0]) 1 1,
    -- 783: del x60
    .del 136,
    -- 784: x61 += einsum("wij->wij", gc.boo)
    .add 132 (.ein [(28, [0, 1, 2])] [0, 1, 2]) 1 1,
    -- 785: x61 += einsum("wx,wij->xij", s2, g.boo)
    .add 132 (.ein [(25, [0, 1]), (0, [0, 2, 3])] [1, 2, 3]) 1 1,
    -- 786: x61 += einsum("wia,jika->wjk", u11, v.ooov)
    .add 132 (.ein [(14, [0, 1, 2]), (6, [3, 1, 4, 2])] [0, 3, 4]) 1 1,
    -- 787: l1new -= einsum("wai,wji->aj", lu11, x61)
    .add 36 (.ein [(24, [0, 1, 2]), (132, [0, 3, 2])] [1, 3]) (-1) 1,
    -- 788: del x61
    .del 132,
    -- 789: x62 = np.zeros((nbos, nvir, nvir), dtype=types[float])
    .zeros 139 [2, 1, 1],
    -- 790: x62 += einsum("wab->wab", gc.bvv)
    .add 139 (.ein [(31, [0, 1, 2])] [0, 1, 2]) 1 1,
    -- 791: x62 += einsum("wx,wab->xab", s2, g.bvv)
    .add 139 (.ein [(25, [0, 1]), (3, [0, 2, 3])] [1, 2, 3]) 1 1,
    -- 792: x62 -= einsum("wia,ibca->wbc", u11, v.ovvv)
    .add 139 (.ein [(14, [0, 1, 2]), (9, [1, 3, 4, 2])] [0, 3, 4]) (-1) 1,
    -- 793: l1new += einsum("wai,wab->bi", lu11, x62)
    .add 36 (.ein [(24, [0, 1, 2]), (139, [0, 1, 3])] [3, 2]) 1 1,
    -- 794: del x62
    .del 139,
    -- 795: x64 = np.zeros((nbos, nocc, nvir), dtype=types[float])
    .zeros 140 [2, 0, 1],
    -- 796: x64 += einsum("wx,xai->wia", s2, lu11)
    .add 140 (.ein [(25, [0, 1]), (24, [1, 2, 3])] [0, 3, 2]) 1 1,
    -- 797: x65 += einsum("wia->wia", x64)
    .add 63 (.ein [(140, [0, 1, 2])] [0, 1, 2]) 1 1,
    -- 798: x67 += einsum("ia,wja->wji", t1, x65)
    .add 122 (.ein [(4, [0, 1]), (63, [2, 3, 1])] [2, 3, 0]) 1 1,
    -- 799: del x65
    .del 63,
    -- 800: x100 += einsum("wia->wia", x64)
    .add 64 (.ein [(140, [0, 1, 2])] [0, 1, 2]) 1 1,
    -- 801: del x64
    .del 140,
    -- 802: x101 = np.zeros((nocc, nocc, nvir, nvir), dtype=types[float])
    .zeros 141 [0, 0, 1, 1],
    -- 803: x101 += einsum("wia,wjb->ijab", g.bov, x100)
    .add 141 (.ein [(2, [0, 1, 2]), (64, [0, 3, 4])] [1, 3, 2, 4]) 1 1,
    -- 804: del x100
    .del 64,
    -- 805: x102 += einsum("ijab->ijab", x101)
    .add 41 (.ein [(141, [0, 1, 2, 3])] [0, 1, 2, 3]) 1 1,
    -- 806: del x101
    .del 141,
    -- 807: x67 += einsum("ai,wja->wij", l1, u11)
    .add 122 (.ein [(12, [0, 1]), (14, [2, 3, 0])] [2, 1, 3]) 1 1,
    -- 808: l1new += einsum("wia,wji->aj", g.bov, x67) * -1
    .add 36 (.ein [(2, [0, 1, 2]), (122, [0, 3, 1])] [2, 3]) (-1) 1,
    -- 809: del x67
    .del 122,
    -- 810: x68 += einsum("wij->wij", g.boo)
    .add 94 (.ein [(0, [0, 1, 2])] [0, 1, 2]) 1 1,
    -- 811: x129 = np.zeros((nbos, nocc, nvir), dtype=types[float])
    .zeros 142 [2, 0, 1],
    -- 812: x129 += einsum("ia,wij->wja", t1, x68)
    .add 142 (.ein [(4, [0, 1]), (94, [2, 0, 3])] [2, 3, 1]) 1 1,
    -- 813: x130 = np.zeros((nbos, nocc, nvir), dtype=types[float])
    .zeros 143 [2, 0, 1],
    -- 814: x130 -= einsum("wia->wia", x129)
    .add 143 (.ein [(142, [0, 1, 2])] [0, 1, 2]) (-1) 1,
    -- 815: del x129
    .del 142,
    -- 816: l1new -= einsum("wij,wja->ai", x68, x8)
    .add 36 (.ein [(94, [0, 1, 2]), (62, [0, 2, 3])] [3, 1]) (-1) 1,
    -- 817: del x8
    .del 62,
    -- 818: del x68
    .del 94,
    -- 819: x69 += einsum("wia->wia", gc.bov)
    .add 137 (.ein [(29, [0, 1, 2])] [0, 1, 2]) 1 1,
    -- 820: l1new -= einsum("wij,wja->ai", x47, x69)
    .add 36 (.ein [(118, [0, 1, 2]), (137, [0, 2, 3])] [3, 1]) (-1) 1,
    -- 821: del x69
    .del 137,
    -- 822: del x47
    .del 118,
    -- 823: x70 += einsum("ab->ab", f.vv)
    .add 107 (.ein [(21, [0, 1])] [0, 1]) 1 1,
    -- 824: l1new += einsum("ai,ab->bi", l1, x70)
    .add 36 (.ein [(12, [0, 1]), (107, [0, 2])] [2, 1]) 1 1,
    -- 825: del x70
    .del 107,
    -- 826: x71 = np.zeros((nbos), dtype=types[float])
    .zeros 144 [2],
    -- 827: x71 += einsum("w,xw->x", s1, w)
    .add 144 (.ein [(13, [0]), (26, [1, 0])] [1]) 1 1,
    -- 828: x76 += einsum("w->w", x71)
    .add 134 (.ein [(144, [0])] [0]) 1 1,
    -- 829: del x71
    .del 144,
    -- 830: x72 = np.zeros((nbos), dtype=types[float])
    .zeros 145 [2],
    -- 831: x72 += einsum("ia,wia->w", t1, gc.bov)
    .add 145 (.ein [(4, [0, 1]), (29, [2, 0, 1])] [2]) 1 1,
    -- 832: x76 += einsum("w->w", x72)
    .add 134 (.ein [(145, [0])] [0]) 1 1,
    -- 833: del x72
    .del 145,
    -- 834: x74 += einsum("w->w", G)
    .add 114 (.ein [(22, [0])] [0]) 1 1,
    -- 835: x75 = np.zeros((nbos), dtype=types[float])
    .zeros 146 [2],
    -- 836: x75 += einsum("w,wx->x", x74, s2)
    .add 146 (.ein [(114, [0]), (25, [0, 1])] [1]) 1 1,
    -- 837: x76 += einsum("w->w", x75)
    .add 134 (.ein [(146, [0])] [0]) 1 1,
    -- 838: del x75
    .del 146,
    -- 839: x132 = np.zeros((nbos, nbos), dtype=types[float])
    .zeros 147 [2, 2],
    -- 840: x132 += einsum("w,x->xw", ls1, x74)
    .add 147 (.ein [(15, [0]), (114, [1])] [1, 0]) 1 1,
    -- 841: del x74
    .del 114,
    -- 842: x76 += einsum("w->w", G)
    .add 134 (.ein [(22, [0])] [0]) 1 1,
    -- 843: l1new += einsum("w,wai->ai", x76, lu11)
    .add 36 (.ein [(134, [0]), (24, [0, 1, 2])] [1, 2]) 1 1,
    -- 844: ls1new += einsum("w,wx->x", x76, ls2)
    .add 52 (.ein [(134, [0]), (27, [0, 1])] [1]) 1 1,
    -- 845: del x76
    .del 134,
    -- 846: x78 += einsum("ia->ia", f.ov)
    .add 76 (.ein [(11, [0, 1])] [0, 1]) 1 1,
    -- 847: l1new -= einsum("ij,ja->ai", x77, x78)
    .add 36 (.ein [(51, [0, 1]), (76, [1, 2])] [2, 0]) (-1) 1,
    -- 848: del x77
    .del 51,
    -- 849: del x78
    .del 76,
    -- 850: x79 = np.zeros((nbos), dtype=types[float])
    .zeros 148 [2],
    -- 851: x79 += einsum("w->w", s1)
    .add 148 (.ein [(13, [0])] [0]) 1 1,
    -- 852: x79 += einsum("w,xw->x", ls1, s2)
    .add 148 (.ein [(15, [0]), (25, [1, 0])] [1]) 1 1,
    -- 853: x79 += einsum("ai,wia->w", l1, u11)
    .add 148 (.ein [(12, [0, 1]), (14, [2, 1, 0])] [2]) 1 1,
    -- 854: l1new += einsum("w,wia->ai", x79, g.bov)
    .add 36 (.ein [(148, [0]), (2, [0, 1, 2])] [2, 1]) 1 1,
    -- 855: del x79
    .del 148,
    -- 856: x80 = np.zeros((nocc, nocc, nvir, nvir), dtype=types[float])
    .zeros 149 [0, 0, 1, 1],
    -- 857: x80 += einsum("ai,jkib->jkab", l1, v.ooov)
    .add 149 (.ein [(12, [0, 1]), (6, [2, 3, 1, 4])] [2, 3, 0, 4]) 1 1,
    -- 858: x82 = np.zeros((nocc, nocc, nvir, nvir), dtype=types[float])
    .zeros 150 [0, 0, 1, 1],
    -- 859: x82 -= einsum("ijab->jiab", x80)
    .add 150 (.ein [(149, [0, 1, 2, 3])] [1, 0, 2, 3]) (-1) 1,
    -- 860: del x80
    .del 149,
    -- 861: x81 = np.zeros((nocc, nocc, nvir, nvir), dtype=types[float])
    .zeros 151 [0, 0, 1, 1],
    -- 862: x81 += einsum("ab,caij->ijbc", f.vv, l2)
    .add 151 (.ein [(21, [0, 1]), (5, [2, 0, 3, 4])] [3, 4, 1, 2]) 1 1,
    -- 863: x82 -= einsum("ijab->jiab", x81)
    .add 150 (.ein [(151, [0, 1, 2, 3])] [1, 0, 2, 3]) (-1) 1,
    -- 864: del x81
    .del 151,
    -- 865: l2new -= einsum("ijab->abij", x82)
    .add 42 (.ein [(150, [0, 1, 2, 3])] [2, 3, 0, 1]) (-1) 1,
    -- 866: l2new += einsum("ijab->baij", x82)
    .add 42 (.ein [(150, [0, 1, 2, 3])] [3, 2, 0, 1]) 1 1,
    -- 867: del x82
    .del 150,
    -- 868: x83 = np.zeros((nocc, nocc, nvir, nvir), dtype=types[float])
    .zeros 152 [0, 0, 1, 1],
    -- 869: x83 += einsum("ai,jabc->ijbc", l1, v.ovvv)
    .add 152 (.ein [(12, [0, 1]), (9, [2, 0, 3, 4])] [1, 2, 3, 4]) 1 1,
    -- 870: x92 += einsum("ijab->ijba", x83)
    .add 101 (.ein [(152, [0, 1, 2, 3])] [0, 1, 3, 2]) 1 1,
    -- 871: del x83
    .del 152,
    -- 872: x84 += einsum("ia->ia", f.ov)
    .add 56 (.ein [(11, [0, 1])] [0, 1]) 1 1,
    -- 873: x85 = np.zeros((nocc, nocc), dtype=types[float])
    .zeros 153 [0, 0],
    -- 874: x85 += einsum("ia,ja->ij", t1, x84)
    .add 153 (.ein [(4, [0, 1]), (56, [2, 1])] [0, 2]) 1 1,
    -- 875: x86 += einsum("ij->ji", x85)
    .add 97 (.ein [(153, [0, 1])] [1, 0]) 1 1,
    -- 876: del x85
    .del 153,
    -- 877: x102 += einsum("ai,jb->jiba", l1, x84)
    .add 41 (.ein [(12, [0, 1]), (56, [2, 3])] [2, 1, 3, 0]) 1 1,
    -- 878: x117 = np.zeros((nocc, nocc, nvir, nvir), dtype=types[float])
    .zeros 154 [0, 0, 1, 1],
    -- 879: x117 += einsum("ia,jkib->jkba", x84, x0)
    .add 154 (.ein [(56, [0, 1]), (32, [2, 3, 0, 4])] [2, 3, 4, 1]) 1 1,
    -- 880: del x0
    .del 32,
    -- 881: del x84
    .del 56,
    -- 882: x118 -= einsum("ijab->jiba", x117)
    .add 70 (.ein [(154, [0, 1, 2, 3])] [1, 0, 3, 2]) (-1) 1,
    -- 883: del x117
    .del 154,
    -- 884: x86 += einsum("ij->ij", f.oo)
    .add 97 (.ein [(20, [0, 1])] [0, 1]) 1 1,
    -- 885: x87 = np.zeros((nocc, nocc, nvir, nvir), dtype=types[float])
    .zeros 155 [0, 0, 1, 1],
    -- 886: x87 += einsum("ij,abjk->kiab", x86, l2)
    .add 155 (.ein [(97, [0, 1]), (5, [2, 3, 1, 4])] [4, 0, 2, 3]) 1 1,
    -- 887: del x86
    .del 97,
    -- 888: x92 += einsum("ijab->jiba", x87)
    .add 101 (.ein [(155, [0, 1, 2, 3])] [1, 0, 3, 2]) 1 1,
    -- 889: del x87
    .del 155,
    -- 890: l2new += einsum("ijab->abij", x92)
    .add 42 (.ein [(101, [0, 1, 2, 3])] [2, 3, 0, 1]) 1 1,
    -- 891: l2new -= einsum("ijab->abji", x92)
    .add 42 (.ein [(101, [0, 1, 2, 3])] [2, 3, 1, 0]) (-1) 1,
    -- 892: del x92
    .del 101,
    -- 893: x93 = np.zeros((nocc, nocc, nvir, nvir), dtype=types[float])
    .zeros 156 [0, 0, 1, 1],
    -- 894: x93 += einsum("wia,wbj->ijab", gc.bov, lu11)
    .add 156 (.ein [(29, [0, 1, 2]), (24, [0, 3, 4])] [1, 4, 2, 3]) 1 1,
    -- 895: x102 += einsum("ijab->ijab", x93)
    .add 41 (.ein [(156, [0, 1, 2, 3])] [0, 1, 2, 3]) 1 1,
    -- 896: del x93
    .del 156,
    -- 897: x97 = np.zeros((nocc, nocc, nvir, nvir), dtype=types[float])
    .zeros 157 [0, 0, 1, 1],
    -- 898: x97 += einsum("ijab,kica->jkbc", t2, v.oovv)
    .add 157 (.ein [(7, [0, 1, 2, 3]), (10, [4, 0, 5, 2])] [1, 4, 3, 5]) 1 1,
    -- 899: x98 += einsum("ijab->ijab", x97)
    .add 61 (.ein [(157, [0, 1, 2, 3])] [0, 1, 2, 3]) 1 1,
    -- 900: del x97
    .del 157,
    -- 901: x98 -= einsum("iajb->jiab", v.ovov)
    .add 61 (.ein [(8, [0, 1, 2, 3])] [2, 0, 1, 3]) (-1) 1,
    -- 902: x99 = np.zeros((nocc, nocc, nvir, nvir), dtype=types[float])
    .zeros 158 [0, 0, 1, 1],
    -- 903: x99 += einsum("abij,ikac->jkbc", l2, x98)
    .add 158 (.ein [(5, [0, 1, 2, 3]), (61, [2, 4, 0, 5])] [3, 4, 1, 5]) 1 1,
    -- 904: del x98
    .del 61,
    -- 905: x102 += einsum("ijab->ijab", x99)
    .add 41 (.ein [(158, [0, 1, 2, 3])] [0, 1, 2, 3]) 1 1,
    -- 906: del x99
    .del 158,
    -- 907: l2new += einsum("ijab->abij", x102)
    .add 42 (.ein [(41, [0, 1, 2, 3])] [2, 3, 0, 1]) 1 1,
    -- 908: l2new -= einsum("ijab->baij", x102)
    .add 42 (.ein [(41, [0, 1, 2, 3])] [3, 2, 0, 1]) (-1) 1,
    -- 909: l2new -= einsum("ijab->abji", x102)
    .add 42 (.ein [(41, [0, 1, 2, 3])] [2, 3, 1, 0]) (-1) 1,
    -- 910: l2new += einsum("ijab->baji", x102)
    .add 42 (.ein [(41, [0, 1, 2, 3])] [3, 2, 1, 0]) 1 1,
    -- 911: del x102
    .del 41,
    -- 912: x106 = np.zeros((nvir, nvir), dtype=types[float])
    .zeros 159 [1, 1],
    -- 913: x106 -= einsum("ijab,ijca->bc", t2, v.oovv)
    .add 159 (.ein [(7, [0, 1, 2, 3]), (10, [0, 1, 4, 2])] [3, 4]) (-1) 1,
    -- 914: x107 = np.zeros((nocc, nocc, nvir, nvir), dtype=types[float])
    .zeros 160 [0, 0, 1, 1],
    -- 915: x107 -= einsum("ab,caij->jicb", x106, l2)
    .add 160 (.ein [(159, [0, 1]), (5, [2, 0, 3, 4])] [4, 3, 2, 1]) (-1) 1,
    -- 916: del x106
    .del 159,
    -- 917: x109 += einsum("ijab->ijab", x107) * 0.5
    .add 131 (.ein [(160, [0, 1, 2, 3])] [0, 1, 2, 3]) 1 2,
    -- 918: del x107
    .del 160,
    -- 919: l2new += einsum("ijab->abij", x109) * -1
    .add 42 (.ein [(131, [0, 1, 2, 3])] [2, 3, 0, 1]) (-1) 1,
    -- 920: l2new += einsum("ijab->baij", x109)
    .add 42 (.ein [(131, [0, 1, 2, 3])] [3, 2, 0, 1]) 1 1,
    -- 921: del x109
    .del 131,
    -- 922: x114 = np.zeros((nvir, nvir), dtype=types[float])
    .zeros 161 [1, 1],
    -- 923: x114 += einsum("wia,wib->ab", g.bov, u11)
    .add 161 (.ein [(2, [0, 1, 2]), (14, [0, 1, 3])] [2, 3]) 1 1,
    -- 924: x115 -= einsum("ab->ba", x114)
    .add 108 (.ein [(161, [0, 1])] [1, 0]) (-1) 1,
    -- 925: del x114
    .del 161,
    -- 926: x116 = np.zeros((nocc, nocc, nvir, nvir), dtype=types[float])
    .zeros 162 [0, 0, 1, 1],
    -- 927: x116 += einsum("ab,acij->ijcb", x115, l2)
    .add 162 (.ein [(108, [0, 1]), (5, [0, 2, 3, 4])] [3, 4, 2, 1]) 1 1,
    -- 928: del x115
    .del 108,
    -- 929: x118 -= einsum("ijab->jiba", x116)
    .add 70 (.ein [(162, [0, 1, 2, 3])] [1, 0, 3, 2]) (-1) 1,
    -- 930: del x116
    .del 162,
    -- 931: l2new += einsum("ijab->abij", x118)
    .add 42 (.ein [(70, [0, 1, 2, 3])] [2, 3, 0, 1]) 1 1,
    -- 932: l2new -= einsum("ijab->baij", x118)
    .add 42 (.ein [(70, [0, 1, 2, 3])] [3, 2, 0, 1]) (-1) 1,
    -- 933: del x118
    .del 70,
    -- 934: x119 += einsum("ijka->jika", v.ooov) * -1
    .add 71 (.ein [(6, [0, 1, 2, 3])] [1, 0, 2, 3]) (-1) 1,
    -- 935: x120 += einsum("ia,jkla->kjli", t1, x119) * -2
    .add 86 (.ein [(4, [0, 1]), (71, [2, 3, 4, 1])] [3, 2, 4, 0]) (-2) 1,
    -- 936: del x119
    .del 71,
    -- 937: x120 += einsum("ijkl->jilk", v.oooo)
    .add 86 (.ein [(16, [0, 1, 2, 3])] [1, 0, 3, 2]) 1 1,
    -- 938: l2new += einsum("abij,klij->balk", l2, x120) * 0.5
    .add 42 (.ein [(5, [0, 1, 2, 3]), (86, [4, 5, 2, 3])] [1, 0, 5, 4]) 1 2,
    -- 939: del x120
    .del 86,
    -- 940: x124 = np.zeros((nbos, nbos), dtype=types[float])
    .zeros 163 [2, 2],
    -- 941: x124 += einsum("wx,xy->wy", ls2, w)
    .add 163 (.ein [(27, [0, 1]), (26, [1, 2])] [0, 2]) 1 1,
    -- 942: x132 += einsum("wx->wx", x124)
    .add 147 (.ein [(163, [0, 1])] [0, 1]) 1 1,
    -- 943: del x124
    .del 163,
    -- 944: x125 = np.zeros((nbos, nbos), dtype=types[float])
    .zeros 164 [2, 2],
    -- 945: x125 += einsum("wia,xia->wx", g.bov, u11)
    .add 164 (.ein [(2, [0, 1, 2]), (14, [3, 1, 2])] [0, 3]) 1 1,
    -- 946: x126 = np.zeros((nbos, nbos), dtype=types[float])
    .zeros 165 [2, 2],
    -- 947: x126 += einsum("wx,yx->yw", ls2, x125)
    .add 165 (.ein [(27, [0, 1]), (164, [2, 1])] [2, 0]) 1 1,
    -- 948: del x125
    .del 164,
    -- 949: x132 += einsum("wx->wx", x126)
    .add 147 (.ein [(165, [0, 1])] [0, 1]) 1 1,
    -- 950: del x126
    .del 165,
    -- 951: x127 = np.zeros((nbos, nocc, nvir), dtype=types[float])
    .zeros 166 [2, 0, 1],
    -- 952: x127 += einsum("ia,wba->wib", t1, g.bvv)
    .add 166 (.ein [(4, [0, 1]), (3, [2, 3, 1])] [2, 0, 3]) 1 1,
    -- 953: x130 += einsum("wia->wia", x127)
    .add 143 (.ein [(166, [0, 1, 2])] [0, 1, 2]) 1 1,
    -- 954: del x127
    .del 166,
    -- 955: x128 = np.zeros((nbos, nocc, nvir), dtype=types[float])
    .zeros 167 [2, 0, 1],
    -- 956: x128 += einsum("wia,jiba->wjb", g.bov, t2)
    .add 167 (.ein [(2, [0, 1, 2]), (7, [3, 1, 4, 2])] [0, 3, 4]) 1 1,
    -- 957: x130 += einsum("wia->wia", x128)
    .add 143 (.ein [(167, [0, 1, 2])] [0, 1, 2]) 1 1,
    -- 958: del x128
    .del 167,
    -- 959: x130 += einsum("wai->wia", g.bvo)
    .add 143 (.ein [(1, [0, 1, 2])] [0, 2, 1]) 1 1,
    -- 960: x131 = np.zeros((nbos, nbos), dtype=types[float])
    .zeros 168 [2, 2],
    -- 961: x131 += einsum("wai,xia->wx", lu11, x130)
    .add 168 (.ein [(24, [0, 1, 2]), (143, [3, 2, 1])] [0, 3]) 1 1,
    -- 962: del x130
    .del 143,
    -- 963: x132 += einsum("wx->xw", x131)
    .add 147 (.ein [(168, [0, 1])] [1, 0]) 1 1,
    -- 964: del x131
    .del 168,
    -- 965: ls2new = np.zeros((nbos, nbos), dtype=types[float])
    .zeros 169 [2, 2],
    -- 966: ls2new += einsum("wx->wx", x132)
    .add 169 (.ein [(147, [0, 1])] [0, 1]) 1 1,
    -- 967: ls2new += einsum("wx->xw", x132)
    .add 169 (.ein [(147, [0, 1])] [1, 0]) 1 1,
    -- 968: del x132
    .del 147,
    -- 969: l1new += einsum("ia->ai", f.ov)
    .add 36 (.ein [(11, [0, 1])] [1, 0]) 1 1,
    -- 970: l1new += einsum("w,wia->ai", ls1, gc.bov)
    .add 36 (.ein [(15, [0]), (29, [0, 1, 2])] [2, 1]) 1 1,
    -- 971: l1new -= einsum("ai,jaib->bj", l1, v.ovov)
    .add 36 (.ein [(12, [0, 1]), (8, [2, 0, 1, 3])] [3, 2]) (-1) 1,
    -- 972: l2new += einsum("abij,abcd->dcji", l2, v.vvvv) * 0.5
    .add 42 (.ein [(5, [0, 1, 2, 3]), (19, [0, 1, 4, 5])] [5, 4, 3, 2]) 1 2,
    -- 973: l2new += einsum("ijab->baji", v.oovv)
    .add 42 (.ein [(10, [0, 1, 2, 3])] [3, 2, 1, 0]) 1 1,
    -- 974: ls1new += einsum("w,wx->x", ls1, w)
    .add 52 (.ein [(15, [0]), (26, [0, 1])] [1]) 1 1,
    -- 975: ls1new += einsum("ai,wai->w", l1, g.bvo)
    .add 52 (.ein [(12, [0, 1]), (1, [2, 0, 1])] [2]) 1 1,
    -- 976: ls1new += einsum("w->w", G)
    .add 52 (.ein [(22, [0])] [0]) 1 1,
    -- 977: lu11new += einsum("wx,xia->wai", ls2, gc.bov)
    .add 83 (.ein [(27, [0, 1]), (29, [1, 2, 3])] [0, 3, 2]) 1 1,
    -- 978: lu11new += einsum("wx,wai->xai", w, lu11)
    .add 83 (.ein [(26, [0, 1]), (24, [0, 2, 3])] [1, 2, 3]) 1 1,
    -- 979: lu11new -= einsum("ij,waj->wai", f.oo, lu11)
    .add 83 (.ein [(20, [0, 1]), (24, [2, 3, 1])] [2, 3, 0]) (-1) 1,
    -- 980: lu11new -= einsum("ai,wji->waj", l1, g.boo)
    .add 83 (.ein [(12, [0, 1]), (0, [2, 3, 1])] [2, 0, 3]) (-1) 1,
    -- 981: lu11new += einsum("wia->wai", g.bov)
    .add 83 (.ein [(2, [0, 1, 2])] [0, 2, 1]) 1 1,
    -- 982: lu11new += einsum("ab,wai->wbi", f.vv, lu11)
    .add 83 (.ein [(21, [0, 1]), (24, [2, 0, 3])] [2, 1, 3]) 1 1,
    -- 983: lu11new += einsum("ai,wab->wbi", l1, g.bvv)
    .add 83 (.ein [(12, [0, 1]), (3, [2, 0, 3])] [2, 3, 1]) 1 1,
    -- 984: lu11new += einsum("wai,baji->wbj", g.bvo, l2)
    .add 83 (.ein [(1, [0, 1, 2]), (5, [3, 1, 4, 2])] [0, 3, 4]) 1 1,
    -- 985: lu11new -= einsum("wai,jaib->wbj", lu11, v.ovov)
    .add 83 (.ein [(24, [0, 1, 2]), (8, [3, 1, 2, 4])] [0, 4, 3]) (-1) 1
  ]
  ret := [(chars! "l1new", 36), (chars! "l2new", 42), (chars! "ls1new", 52), (chars! "ls2new", 169), (chars! "lu11new", 83)]

/-- codegen/GCCSD_SD_1_1.py:989-1043 `make_rdm1_f`. -/
def make_rdm1_f : GenFun where
  args := [chars! "g.boo", chars! "g.bvo", chars! "g.bov", chars! "g.bvv", chars! "l1", chars! "t1", chars! "lu11", chars! "u11", chars! "l2", chars! "t2", chars! "ls1"]
  body := [
    -- 991: gc = Namespace(
    .set 11 (.tr 0 [0, 2, 1]) 1 1,
    .set 12 (.tr 1 [0, 2, 1]) 1 1,
    .set 13 (.tr 2 [0, 2, 1]) 1 1,
    .set 14 (.tr 3 [0, 2, 1]) 1 1,
    -- 998: delta_oo = np.eye(nocc)
    .eye 15 0,
    -- 999: delta_vv = np.eye(nvir)
    .eye 16 1,
    -- 1002: x0 = np.zeros((nocc, nocc), dtype=types[float])
    .zeros 17 [0, 0],
    -- 1003: x0 += einsum("ai,ja->ij", l1, t1)
    .add 17 (.ein [(4, [0, 1]), (5, [2, 0])] [1, 2]) 1 1,
    -- 1004: x5 = np.zeros((nocc, nocc), dtype=types[float])
    .zeros 18 [0, 0],
    -- 1005: x5 += einsum("ij->ij", x0)
    .add 18 (.ein [(17, [0, 1])] [0, 1]) 1 1,
    -- 1006: rdm1_f_oo = np.zeros((nocc, nocc), dtype=types[float])
    .zeros 19 [0, 0],
    -- 1007: rdm1_f_oo -= einsum("ij->ij", x0)
    .add 19 (.ein [(17, [0, 1])] [0, 1]) (-1) 1,
    -- 1008: del x0
    .del 17,
    -- 1009: x1 = np.zeros((nocc, nocc), dtype=types[float])
    .zeros 20 [0, 0],
    -- 1010: x1 += einsum("wai,wja->ij", lu11, u11)
    .add 20 (.ein [(6, [0, 1, 2]), (7, [0, 3, 1])] [2, 3]) 1 1,
    -- 1011: x5 += einsum("ij->ij", x1)
    .add 18 (.ein [(20, [0, 1])] [0, 1]) 1 1,
    -- 1012: rdm1_f_oo -= einsum("ij->ij", x1)
    .add 19 (.ein [(20, [0, 1])] [0, 1]) (-1) 1,
    -- 1013: del x1
    .del 20,
    -- 1014: x2 = np.zeros((nocc, nocc), dtype=types[float])
    .zeros 21 [0, 0],
    -- 1015: x2 += einsum("abij,kjab->ik", l2, t2)
    .add 21 (.ein [(8, [0, 1, 2, 3]), (9, [4, 3, 0, 1])] [2, 4]) 1 1,
    -- 1016: x5 += einsum("ij->ij", x2) * 0.5
    .add 18 (.ein [(21, [0, 1])] [0, 1]) 1 2,
    -- 1017: rdm1_f_vo = np.zeros((nvir, nocc), dtype=types[float])
    .zeros 22 [1, 0],
    -- 1018: rdm1_f_vo += einsum("ia,ij->aj", t1, x5) * -1
    .add 22 (.ein [(5, [0, 1]), (18, [0, 2])] [1, 2]) (-1) 1,
    -- 1019: del x5
    .del 18,
    -- 1020: rdm1_f_oo += einsum("ij->ij", x2) * -0.5
    .add 19 (.ein [(21, [0, 1])] [0, 1]) (-1) 2,
    -- 1021: del x2
    .del 21,
    -- 1022: x3 = np.zeros((nbos, nocc, nocc), dtype=types[float])
    .zeros 23 [2, 0, 0],
    -- 1023: x3 += einsum("ia,waj->wji", t1, lu11)
    .add 23 (.ein [(5, [0, 1]), (6, [2, 1, 3])] [2, 3, 0]) 1 1,
    -- 1024: rdm1_f_vo -= einsum("wia,wij->aj", u11, x3)
    .add 22 (.ein [(7, [0, 1, 2]), (23, [0, 1, 3])] [2, 3]) (-1) 1,
    -- 1025: del x3
    .del 23,
    -- 1026: x4 = np.zeros((nocc, nocc, nocc, nvir), dtype=types[float])
    .zeros 24 [0, 0, 0, 1],
    -- 1027: x4 += einsum("ia,bajk->jkib", t1, l2)
    .add 24 (.ein [(5, [0, 1]), (8, [2, 1, 3, 4])] [3, 4, 0, 2]) 1 1,
    -- 1028: rdm1_f_vo += einsum("ijab,ijkb->ak", t2, x4) * 0.5
    .add 22 (.ein [(9, [0, 1, 2, 3]), (24, [0, 1, 4, 3])] [2, 4]) 1 2,
    -- 1029: del x4
    .del 24,
    -- 1030: rdm1_f_oo += einsum("ij->ji", delta_oo)
    .add 19 (.ein [(15, [0, 1])] [1, 0]) 1 1,
    -- 1031: rdm1_f_ov = np.zeros((nocc, nvir), dtype=types[float])
    .zeros 25 [0, 1],
    -- 1032: rdm1_f_ov += einsum("ai->ia", l1)
    .add 25 (.ein [(4, [0, 1])] [1, 0]) 1 1,
    -- 1033: rdm1_f_vo += einsum("ai,jiba->bj", l1, t2)
    .add 22 (.ein [(4, [0, 1]), (9, [2, 1, 3, 0])] [3, 2]) 1 1,
    -- 1034: rdm1_f_vo += einsum("w,wia->ai", ls1, u11)
    .add 22 (.ein [(10, [0]), (7, [0, 1, 2])] [2, 1]) 1 1,
    -- 1035: rdm1_f_vo += einsum("ia->ai", t1)
    .add 22 (.ein [(5, [0, 1])] [1, 0]) 1 1,
    -- 1036: rdm1_f_vv = np.zeros((nvir, nvir), dtype=types[float])
    .zeros 26 [1, 1],
    -- 1037: rdm1_f_vv += einsum("wai,wib->ba", lu11, u11)
    .add 26 (.ein [(6, [0, 1, 2]), (7, [0, 2, 3])] [3, 1]) 1 1,
    -- 1038: rdm1_f_vv += einsum("ai,ib->ba", l1, t1)
    .add 26 (.ein [(4, [0, 1]), (5, [1, 2])] [2, 0]) 1 1,
    -- 1039: rdm1_f_vv += einsum("abij,ijca->cb", l2, t2) * -0.5
    .add 26 (.ein [(8, [0, 1, 2, 3]), (9, [2, 3, 4, 0])] [4, 1]) (-1) 2
  ]
  ret := [(chars! "rdm1_f.oo", 19), (chars! "rdm1_f.ov", 25), (chars! "rdm1_f.vo", 22), (chars! "rdm1_f.vv", 26)]

/-- codegen/GCCSD_SD_1_1.py:1045-1416 `make_rdm2_f`. -/
def make_rdm2_f : GenFun where
  args := [chars! "g.boo", chars! "g.bvo", chars! "g.bov", chars! "g.bvv", chars! "l2", chars! "t2", chars! "t1", chars! "l1", chars! "lu11", chars! "u11", chars! "ls1", chars! "ls2"]
  body := [
    -- 1047: gc = Namespace(
    .set 12 (.tr 0 [0, 2, 1]) 1 1,
    .set 13 (.tr 1 [0, 2, 1]) 1 1,
    .set 14 (.tr 2 [0, 2, 1]) 1 1,
    .set 15 (.tr 3 [0, 2, 1]) 1 1,
    -- 1054: delta_oo = np.eye(nocc)
    .eye 16 0,
    -- 1055: delta_vv = np.eye(nvir)
    .eye 17 1,
    -- 1058: x0 = np.zeros((nocc, nocc, nocc, nocc), dtype=types[float])
    .zeros 18 [0, 0, 0, 0],
    -- 1059: x0 += einsum("abij,klab->ijkl", l2, t2)
    .add 18 (.ein [(4, [0, 1, 2, 3]), (5, [4, 5, 0, 1])] [2, 3, 4, 5]) 1 1,
    -- 1060: x20 = np.zeros((nocc, nocc, nocc, nocc), dtype=types[float])
    .zeros 19 [0, 0, 0, 0],
    -- 1061: x20 += einsum("ijkl->jilk", x0) * -1
    .add 19 (.ein [(18, [0, 1, 2, 3])] [1, 0, 3, 2]) (-1) 1,
    -- 1062: x51 = np.zeros((nocc, nocc, nocc, nocc), dtype=types[float])
    .zeros 20 [0, 0, 0, 0],
    -- 1063: x51 += einsum("ijkl->jilk", x0) * -1
    .add 20 (.ein [(18, [0, 1, 2, 3])] [1, 0, 3, 2]) (-1) 1,
    -- 1064: x52 = np.zeros((nocc, nocc, nocc, nocc), dtype=types[float])
    .zeros 21 [0, 0, 0, 0],
    -- 1065: x52 += einsum("ijkl->jilk", x0) * -1
    .add 21 (.ein [(18, [0, 1, 2, 3])] [1, 0, 3, 2]) (-1) 1,
    -- 1066: rdm2_f_oooo = np.zeros((nocc, nocc, nocc, nocc), dtype=types[float])
    .zeros 22 [0, 0, 0, 0],
    -- 1067: rdm2_f_oooo += einsum("ijkl->jilk", x0) * 0.5
    .add 22 (.ein [(18, [0, 1, 2, 3])] [1, 0, 3, 2]) 1 2,
    -- 1068: del x0
    .del 18,
    -- 1069: x1 = np.zeros((nocc, nocc, nocc, nvir), dtype=types[float])
    .zeros 23 [0, 0, 0, 1],
    -- 1070: x1 += einsum("ia,bajk->jkib", t1, l2)
    .add 23 (.ein [(6, [0, 1]), (4, [2, 1, 3, 4])] [3, 4, 0, 2]) 1 1,
    -- 1071: x2 = np.zeros((nocc, nocc, nocc, nocc), dtype=types[float])
    .zeros 24 [0, 0, 0, 0],
    -- 1072: x2 += einsum("ia,jkla->jkil", t1, x1)
    .add 24 (.ein [(6, [0, 1]), (23, [2, 3, 4, 1])] [2, 3, 0, 4]) 1 1,
    -- 1073: x20 += einsum("ijkl->ijlk", x2) * 2
    .add 19 (.ein [(24, [0, 1, 2, 3])] [0, 1, 3, 2]) 2 1,
    -- 1074: x21 = np.zeros((nocc, nocc, nocc, nvir), dtype=types[float])
    .zeros 25 [0, 0, 0, 1],
    -- 1075: x21 += einsum("ia,ijkl->jkla", t1, x20) * 0.5
    .add 25 (.ein [(6, [0, 1]), (19, [0, 2, 3, 4])] [2, 3, 4, 1]) 1 2,
    -- 1076: del x20
    .del 19,
    -- 1077: rdm2_f_ovoo = np.zeros((nocc, nvir, nocc, nocc), dtype=types[float])
    .zeros 26 [0, 1, 0, 0],
    -- 1078: rdm2_f_ovoo += einsum("ijka->iakj", x21) * -1
    .add 26 (.ein [(25, [0, 1, 2, 3])] [0, 3, 2, 1]) (-1) 1,
    -- 1079: rdm2_f_vooo = np.zeros((nvir, nocc, nocc, nocc), dtype=types[float])
    .zeros 27 [1, 0, 0, 0],
    -- 1080: rdm2_f_vooo += einsum("ijka->aikj", x21)
    .add 27 (.ein [(25, [0, 1, 2, 3])] [3, 0, 2, 1]) 1 1,
    -- 1081: del x21
    .del 25,
    -- 1082: x51 += einsum("ijkl->ijlk", x2) * 2.0000000000000013
    .add 20 (.ein [(24, [0, 1, 2, 3])] [0, 1, 3, 2]) 2 1,
    -- 1083: rdm2_f_vvoo = np.zeros((nvir, nvir, nocc, nocc), dtype=types[float])
    .zeros 28 [1, 1, 0, 0],
    -- 1084: rdm2_f_vvoo += einsum("ijab,ijkl->balk", t2, x51) * -0.25
    .add 28 (.ein [(5, [0, 1, 2, 3]), (20, [0, 1, 4, 5])] [3, 2, 5, 4]) (-1) 4,
    -- 1085: del x51
    .del 20,
    -- 1086: x52 += einsum("ijkl->ijlk", x2) * 1.9999999999999987
    .add 21 (.ein [(24, [0, 1, 2, 3])] [0, 1, 3, 2]) 2 1,
    -- 1087: x53 = np.zeros((nocc, nocc, nocc, nvir), dtype=types[float])
    .zeros 29 [0, 0, 0, 1],
    -- 1088: x53 += einsum("ia,ijkl->jlka", t1, x52) * -1
    .add 29 (.ein [(6, [0, 1]), (21, [0, 2, 3, 4])] [2, 4, 3, 1]) (-1) 1,
    -- 1089: del x52
    .del 21,
    -- 1090: rdm2_f_vvoo += einsum("ia,ijkb->abkj", t1, x53) * -0.5000000000000003
    .add 28 (.ein [(6, [0, 1]), (29, [0, 2, 3, 4])] [1, 4, 3, 2]) (-1) 2,
    -- 1091: del x53
    .del 29,
    -- 1092: rdm2_f_oooo -= einsum("ijkl->ijlk", x2)
    .add 22 (.ein [(24, [0, 1, 2, 3])] [0, 1, 3, 2]) (-1) 1,
    -- 1093: del x2
    .del 24,
    -- 1094: x9 = np.zeros((nocc, nocc, nocc, nvir), dtype=types[float])
    .zeros 30 [0, 0, 0, 1],
    -- 1095: x9 -= einsum("ijab,kjlb->klia", t2, x1)
    .add 30 (.ein [(5, [0, 1, 2, 3]), (23, [4, 1, 5, 3])] [4, 5, 0, 2]) (-1) 1,
    -- 1096: x15 = np.zeros((nocc, nocc, nocc, nvir), dtype=types[float])
    .zeros 31 [0, 0, 0, 1],
    -- 1097: x15 += einsum("ijka->ijka", x9)
    .add 31 (.ein [(30, [0, 1, 2, 3])] [0, 1, 2, 3]) 1 1,
    -- 1098: x25 = np.zeros((nocc, nocc, nocc, nvir), dtype=types[float])
    .zeros 32 [0, 0, 0, 1],
    -- 1099: x25 -= einsum("ijka->ijka", x9)
    .add 32 (.ein [(30, [0, 1, 2, 3])] [0, 1, 2, 3]) (-1) 1,
    -- 1100: x34 = np.zeros((nocc, nocc, nvir, nvir), dtype=types[float])
    .zeros 33 [0, 0, 1, 1],
    -- 1101: x34 += einsum("ia,ijkb->jkab", t1, x9)
    .add 33 (.ein [(6, [0, 1]), (30, [0, 2, 3, 4])] [2, 3, 1, 4]) 1 1,
    -- 1102: del x9
    .del 30,
    -- 1103: x39 = np.zeros((nocc, nocc, nvir, nvir), dtype=types[float])
    .zeros 34 [0, 0, 1, 1],
    -- 1104: x39 -= einsum("ijab->ijab", x34)
    .add 34 (.ein [(33, [0, 1, 2, 3])] [0, 1, 2, 3]) (-1) 1,
    -- 1105: del x34
    .del 33,
    -- 1106: x16 = np.zeros((nocc, nvir), dtype=types[float])
    .zeros 35 [0, 1],
    -- 1107: x16 -= einsum("ijab,ijkb->ka", t2, x1)
    .add 35 (.ein [(5, [0, 1, 2, 3]), (23, [0, 1, 4, 3])] [4, 2]) (-1) 1,
    -- 1108: x18 = np.zeros((nocc, nvir), dtype=types[float])
    .zeros 36 [0, 1],
    -- 1109: x18 += einsum("ia->ia", x16)
    .add 36 (.ein [(35, [0, 1])] [0, 1]) 1 1,
    -- 1110: del x16
    .del 35,
    -- 1111: x28 = np.zeros((nocc, nocc, nvir, nvir), dtype=types[float])
    .zeros 37 [0, 0, 1, 1],
    -- 1112: x28 += einsum("ia,jikb->jkba", t1, x1)
    .add 37 (.ein [(6, [0, 1]), (23, [2, 0, 3, 4])] [2, 3, 4, 1]) 1 1,
    -- 1113: x59 = np.zeros((nocc, nvir, nvir, nvir), dtype=types[float])
    .zeros 38 [0, 1, 1, 1],
    -- 1114: x59 -= einsum("ia,ijbc->jbca", t1, x28)
    .add 38 (.ein [(6, [0, 1]), (37, [0, 2, 3, 4])] [2, 3, 4, 1]) (-1) 1,
    -- 1115: rdm2_f_vvov = np.zeros((nvir, nvir, nocc, nvir), dtype=types[float])
    .zeros 39 [1, 1, 0, 1],
    -- 1116: rdm2_f_vvov -= einsum("iabc->cbia", x59)
    .add 39 (.ein [(38, [0, 1, 2, 3])] [3, 2, 0, 1]) (-1) 1,
    -- 1117: rdm2_f_vvvo = np.zeros((nvir, nvir, nvir, nocc), dtype=types[float])
    .zeros 40 [1, 1, 1, 0],
    -- 1118: rdm2_f_vvvo += einsum("iabc->cbai", x59)
    .add 40 (.ein [(38, [0, 1, 2, 3])] [3, 2, 1, 0]) 1 1,
    -- 1119: del x59
    .del 38,
    -- 1120: rdm2_f_ovov = np.zeros((nocc, nvir, nocc, nvir), dtype=types[float])
    .zeros 41 [0, 1, 0, 1],
    -- 1121: rdm2_f_ovov += einsum("ijab->ibja", x28)
    .add 41 (.ein [(37, [0, 1, 2, 3])] [0, 3, 1, 2]) 1 1,
    -- 1122: rdm2_f_ovvo = np.zeros((nocc, nvir, nvir, nocc), dtype=types[float])
    .zeros 42 [0, 1, 1, 0],
    -- 1123: rdm2_f_ovvo -= einsum("ijab->ibaj", x28)
    .add 42 (.ein [(37, [0, 1, 2, 3])] [0, 3, 2, 1]) (-1) 1,
    -- 1124: rdm2_f_voov = np.zeros((nvir, nocc, nocc, nvir), dtype=types[float])
    .zeros 43 [1, 0, 0, 1],
    -- 1125: rdm2_f_voov -= einsum("ijab->bija", x28)
    .add 43 (.ein [(37, [0, 1, 2, 3])] [3, 0, 1, 2]) (-1) 1,
    -- 1126: rdm2_f_vovo = np.zeros((nvir, nocc, nvir, nocc), dtype=types[float])
    .zeros 44 [1, 0, 1, 0],
    -- 1127: rdm2_f_vovo += einsum("ijab->biaj", x28)
    .add 44 (.ein [(37, [0, 1, 2, 3])] [3, 0, 2, 1]) 1 1,
    -- 1128: del x28
    .del 37,
    -- 1129: x58 = np.zeros((nocc, nvir, nvir, nvir), dtype=types[float])
    .zeros 45 [0, 1, 1, 1],
    -- 1130: x58 += einsum("ijab,ijkc->kcab", t2, x1)
    .add 45 (.ein [(5, [0, 1, 2, 3]), (23, [0, 1, 4, 5])] [4, 5, 2, 3]) 1 1,
    -- 1131: rdm2_f_vvov += einsum("iabc->bcia", x58) * 0.5
    .add 39 (.ein [(45, [0, 1, 2, 3])] [2, 3, 0, 1]) 1 2,
    -- 1132: rdm2_f_vvvo += einsum("iabc->bcai", x58) * -0.5
    .add 40 (.ein [(45, [0, 1, 2, 3])] [2, 3, 1, 0]) (-1) 2,
    -- 1133: del x58
    .del 45,
    -- 1134: rdm2_f_ooov = np.zeros((nocc, nocc, nocc, nvir), dtype=types[float])
    .zeros 46 [0, 0, 0, 1],
    -- 1135: rdm2_f_ooov -= einsum("ijka->jika", x1)
    .add 46 (.ein [(23, [0, 1, 2, 3])] [1, 0, 2, 3]) (-1) 1,
    -- 1136: rdm2_f_oovo = np.zeros((nocc, nocc, nvir, nocc), dtype=types[float])
    .zeros 47 [0, 0, 1, 0],
    -- 1137: rdm2_f_oovo += einsum("ijka->jiak", x1)
    .add 47 (.ein [(23, [0, 1, 2, 3])] [1, 0, 3, 2]) 1 1,
    -- 1138: del x1
    .del 23,
    -- 1139: x3 = np.zeros((nocc, nocc), dtype=types[float])
    .zeros 48 [0, 0],
    -- 1140: x3 += einsum("abij,kjab->ik", l2, t2)
    .add 48 (.ein [(4, [0, 1, 2, 3]), (5, [4, 3, 0, 1])] [2, 4]) 1 1,
    -- 1141: x17 = np.zeros((nocc, nvir), dtype=types[float])
    .zeros 49 [0, 1],
    -- 1142: x17 += einsum("ia,ij->ja", t1, x3)
    .add 49 (.ein [(6, [0, 1]), (48, [0, 2])] [2, 1]) 1 1,
    -- 1143: x18 += einsum("ia->ia", x17)
    .add 36 (.ein [(49, [0, 1])] [0, 1]) 1 1,
    -- 1144: del x17
    .del 49,
    -- 1145: x19 = np.zeros((nocc, nocc, nocc, nvir), dtype=types[float])
    .zeros 50 [0, 0, 0, 1],
    -- 1146: x19 += einsum("ij,ka->jika", delta_oo, x18) * 0.5
    .add 50 (.ein [(16, [0, 1]), (36, [2, 3])] [1, 0, 2, 3]) 1 2,
    -- 1147: rdm2_f_vooo += einsum("ij,ka->aijk", delta_oo, x18) * 0.5
    .add 27 (.ein [(16, [0, 1]), (36, [2, 3])] [3, 0, 1, 2]) 1 2,
    -- 1148: rdm2_f_vooo += einsum("ij,ka->aikj", delta_oo, x18) * -0.5
    .add 27 (.ein [(16, [0, 1]), (36, [2, 3])] [3, 0, 2, 1]) (-1) 2,
    -- 1149: rdm2_f_vvoo += einsum("ia,jb->abij", t1, x18) * -0.5000000000000003
    .add 28 (.ein [(6, [0, 1]), (36, [2, 3])] [1, 3, 0, 2]) (-1) 2,
    -- 1150: rdm2_f_vvoo += einsum("ia,jb->baij", t1, x18) * 0.5000000000000003
    .add 28 (.ein [(6, [0, 1]), (36, [2, 3])] [3, 1, 0, 2]) 1 2,
    -- 1151: rdm2_f_vvoo += einsum("ia,jb->abji", t1, x18) * 0.5000000000000003
    .add 28 (.ein [(6, [0, 1]), (36, [2, 3])] [1, 3, 2, 0]) 1 2,
    -- 1152: rdm2_f_vvoo += einsum("ia,jb->baji", t1, x18) * -0.5000000000000003
    .add 28 (.ein [(6, [0, 1]), (36, [2, 3])] [3, 1, 2, 0]) (-1) 2,
    -- 1153: del x18
    .del 36,
    -- 1154: x19 += einsum("ia,jk->jika", t1, x3) * -0.5
    .add 50 (.ein [(6, [0, 1]), (48, [2, 3])] [2, 0, 3, 1]) (-1) 2,
    -- 1155: rdm2_f_ovoo += einsum("ijka->iajk", x19) * -1
    .add 26 (.ein [(50, [0, 1, 2, 3])] [0, 3, 1, 2]) (-1) 1,
    -- 1156: rdm2_f_ovoo += einsum("ijka->iakj", x19)
    .add 26 (.ein [(50, [0, 1, 2, 3])] [0, 3, 2, 1]) 1 1,
    -- 1157: del x19
    .del 50,
    -- 1158: x50 = np.zeros((nocc, nocc, nvir, nvir), dtype=types[float])
    .zeros 51 [0, 0, 1, 1],
    -- 1159: x50 += einsum("ij,kiab->kjab", x3, t2)
    .add 51 (.ein [(48, [0, 1]), (5, [2, 0, 3, 4])] [2, 1, 3, 4]) 1 1,
    -- 1160: rdm2_f_vvoo += einsum("ijab->abij", x50) * -0.5
    .add 28 (.ein [(51, [0, 1, 2, 3])] [2, 3, 0, 1]) (-1) 2,
    -- 1161: rdm2_f_vvoo += einsum("ijab->abji", x50) * 0.5
    .add 28 (.ein [(51, [0, 1, 2, 3])] [2, 3, 1, 0]) 1 2,
    -- 1162: del x50
    .del 51,
    -- 1163: rdm2_f_oooo += einsum("ij,kl->ikjl", delta_oo, x3) * -0.5
    .add 22 (.ein [(16, [0, 1]), (48, [2, 3])] [0, 2, 1, 3]) (-1) 2,
    -- 1164: rdm2_f_oooo += einsum("ij,kl->iklj", delta_oo, x3) * 0.5
    .add 22 (.ein [(16, [0, 1]), (48, [2, 3])] [0, 2, 3, 1]) 1 2,
    -- 1165: rdm2_f_oooo += einsum("ij,kl->kjil", delta_oo, x3) * 0.5
    .add 22 (.ein [(16, [0, 1]), (48, [2, 3])] [2, 1, 0, 3]) 1 2,
    -- 1166: rdm2_f_oooo += einsum("ij,kl->kjli", delta_oo, x3) * -0.5
    .add 22 (.ein [(16, [0, 1]), (48, [2, 3])] [2, 1, 3, 0]) (-1) 2,
    -- 1167: rdm2_f_vooo += einsum("ia,jk->ajik", t1, x3) * -0.5
    .add 27 (.ein [(6, [0, 1]), (48, [2, 3])] [1, 2, 0, 3]) (-1) 2,
    -- 1168: rdm2_f_vooo += einsum("ia,jk->ajki", t1, x3) * 0.5
    .add 27 (.ein [(6, [0, 1]), (48, [2, 3])] [1, 2, 3, 0]) 1 2,
    -- 1169: del x3
    .del 48,
    -- 1170: x4 = np.zeros((nocc, nocc), dtype=types[float])
    .zeros 52 [0, 0],
    -- 1171: x4 += einsum("ai,ja->ij", l1, t1)
    .add 52 (.ein [(7, [0, 1]), (6, [2, 0])] [1, 2]) 1 1,
    -- 1172: x14 = np.zeros((nocc, nocc), dtype=types[float])
    .zeros 53 [0, 0],
    -- 1173: x14 += einsum("ij->ij", x4)
    .add 53 (.ein [(52, [0, 1])] [0, 1]) 1 1,
    -- 1174: x23 = np.zeros((nocc, nvir), dtype=types[float])
    .zeros 54 [0, 1],
    -- 1175: x23 += einsum("ia,ij->ja", t1, x4)
    .add 54 (.ein [(6, [0, 1]), (52, [0, 2])] [2, 1]) 1 1,
    -- 1176: x24 = np.zeros((nocc, nvir), dtype=types[float])
    .zeros 55 [0, 1],
    -- 1177: x24 -= einsum("ia->ia", x23)
    .add 55 (.ein [(54, [0, 1])] [0, 1]) (-1) 1,
    -- 1178: del x23
    .del 54,
    -- 1179: x44 = np.zeros((nocc, nocc, nvir, nvir), dtype=types[float])
    .zeros 56 [0, 0, 1, 1],
    -- 1180: x44 += einsum("ij,kiab->jkab", x4, t2)
    .add 56 (.ein [(52, [0, 1]), (5, [2, 0, 3, 4])] [1, 2, 3, 4]) 1 1,
    -- 1181: x46 = np.zeros((nocc, nocc, nvir, nvir), dtype=types[float])
    .zeros 57 [0, 0, 1, 1],
    -- 1182: x46 -= einsum("ijab->ijba", x44)
    .add 57 (.ein [(56, [0, 1, 2, 3])] [0, 1, 3, 2]) (-1) 1,
    -- 1183: del x44
    .del 56,
    -- 1184: rdm2_f_oooo -= einsum("ij,kl->jkil", delta_oo, x4)
    .add 22 (.ein [(16, [0, 1]), (52, [2, 3])] [1, 2, 0, 3]) (-1) 1,
    -- 1185: rdm2_f_oooo += einsum("ij,kl->kjil", delta_oo, x4)
    .add 22 (.ein [(16, [0, 1]), (52, [2, 3])] [2, 1, 0, 3]) 1 1,
    -- 1186: rdm2_f_oooo += einsum("ij,kl->jkli", delta_oo, x4)
    .add 22 (.ein [(16, [0, 1]), (52, [2, 3])] [1, 2, 3, 0]) 1 1,
    -- 1187: rdm2_f_oooo -= einsum("ij,kl->kjli", delta_oo, x4)
    .add 22 (.ein [(16, [0, 1]), (52, [2, 3])] [2, 1, 3, 0]) (-1) 1,
    -- 1188: del x4
    .del 52,
    -- 1189: x5 = np.zeros((nocc, nocc), dtype=types[float])
    .zeros 58 [0, 0],
    -- 1190: x5 += einsum("wai,wja->ij", lu11, u11)
    .add 58 (.ein [(8, [0, 1, 2]), (9, [0, 3, 1])] [2, 3]) 1 1,
    -- 1191: x12 = np.zeros((nocc, nvir), dtype=types[float])
    .zeros 59 [0, 1],
    -- 1192: x12 += einsum("ia,ij->ja", t1, x5)
    .add 59 (.ein [(6, [0, 1]), (58, [0, 2])] [2, 1]) 1 1,
    -- 1193: x13 = np.zeros((nocc, nvir), dtype=types[float])
    .zeros 60 [0, 1],
    -- 1194: x13 += einsum("ia->ia", x12)
    .add 60 (.ein [(59, [0, 1])] [0, 1]) 1 1,
    -- 1195: del x12
    .del 59,
    -- 1196: x14 += einsum("ij->ij", x5)
    .add 53 (.ein [(58, [0, 1])] [0, 1]) 1 1,
    -- 1197: x15 -= einsum("ia,jk->jika", t1, x14)
    .add 31 (.ein [(6, [0, 1]), (53, [2, 3])] [2, 0, 3, 1]) (-1) 1,
    -- 1198: x25 += einsum("ia,jk->jika", t1, x14)
    .add 32 (.ein [(6, [0, 1]), (53, [2, 3])] [2, 0, 3, 1]) 1 1,
    -- 1199: x54 = np.zeros((nocc, nvir), dtype=types[float])
    .zeros 61 [0, 1],
    -- 1200: x54 += einsum("ia,ij->ja", t1, x14)
    .add 61 (.ein [(6, [0, 1]), (53, [0, 2])] [2, 1]) 1 1,
    -- 1201: del x14
    .del 53,
    -- 1202: x55 = np.zeros((nocc, nvir), dtype=types[float])
    .zeros 62 [0, 1],
    -- 1203: x55 += einsum("ia->ia", x54)
    .add 62 (.ein [(61, [0, 1])] [0, 1]) 1 1,
    -- 1204: x56 = np.zeros((nocc, nvir), dtype=types[float])
    .zeros 63 [0, 1],
    -- 1205: x56 += einsum("ia->ia", x54)
    .add 63 (.ein [(61, [0, 1])] [0, 1]) 1 1,
    -- 1206: del x54
    .del 61,
    -- 1207: x45 = np.zeros((nocc, nocc, nvir, nvir), dtype=types[float])
    .zeros 64 [0, 0, 1, 1],
    -- 1208: x45 += einsum("ij,kiab->kjab", x5, t2)
    .add 64 (.ein [(58, [0, 1]), (5, [2, 0, 3, 4])] [2, 1, 3, 4]) 1 1,
    -- 1209: x46 += einsum("ijab->ijba", x45)
    .add 57 (.ein [(64, [0, 1, 2, 3])] [0, 1, 3, 2]) 1 1,
    -- 1210: del x45
    .del 64,
    -- 1211: rdm2_f_vvoo -= einsum("ijab->baij", x46)
    .add 28 (.ein [(57, [0, 1, 2, 3])] [3, 2, 0, 1]) (-1) 1,
    -- 1212: rdm2_f_vvoo += einsum("ijab->baji", x46)
    .add 28 (.ein [(57, [0, 1, 2, 3])] [3, 2, 1, 0]) 1 1,
    -- 1213: del x46
    .del 57,
    -- 1214: rdm2_f_oooo -= einsum("ij,kl->ikjl", delta_oo, x5)
    .add 22 (.ein [(16, [0, 1]), (58, [2, 3])] [0, 2, 1, 3]) (-1) 1,
    -- 1215: rdm2_f_oooo += einsum("ij,kl->iklj", delta_oo, x5)
    .add 22 (.ein [(16, [0, 1]), (58, [2, 3])] [0, 2, 3, 1]) 1 1,
    -- 1216: rdm2_f_oooo += einsum("ij,kl->kjil", delta_oo, x5)
    .add 22 (.ein [(16, [0, 1]), (58, [2, 3])] [2, 1, 0, 3]) 1 1,
    -- 1217: rdm2_f_oooo -= einsum("ij,kl->kjli", delta_oo, x5)
    .add 22 (.ein [(16, [0, 1]), (58, [2, 3])] [2, 1, 3, 0]) (-1) 1,
    -- 1218: del x5
    .del 58,
    -- 1219: x6 = np.zeros((nocc, nocc, nocc, nvir), dtype=types[float])
    .zeros 65 [0, 0, 0, 1],
    -- 1220: x6 += einsum("ai,jkba->ijkb", l1, t2)
    .add 65 (.ein [(7, [0, 1]), (5, [2, 3, 4, 0])] [1, 2, 3, 4]) 1 1,
    -- 1221: x40 = np.zeros((nocc, nocc, nvir, nvir), dtype=types[float])
    .zeros 66 [0, 0, 1, 1],
    -- 1222: x40 += einsum("ia,ijkb->jkab", t1, x6)
    .add 66 (.ein [(6, [0, 1]), (65, [0, 2, 3, 4])] [2, 3, 1, 4]) 1 1,
    -- 1223: x43 = np.zeros((nocc, nocc, nvir, nvir), dtype=types[float])
    .zeros 67 [0, 0, 1, 1],
    -- 1224: x43 += einsum("ijab->ijab", x40)
    .add 67 (.ein [(66, [0, 1, 2, 3])] [0, 1, 2, 3]) 1 1,
    -- 1225: del x40
    .del 66,
    -- 1226: rdm2_f_ovoo -= einsum("ijka->iakj", x6)
    .add 26 (.ein [(65, [0, 1, 2, 3])] [0, 3, 2, 1]) (-1) 1,
    -- 1227: rdm2_f_vooo += einsum("ijka->aikj", x6)
    .add 27 (.ein [(65, [0, 1, 2, 3])] [3, 0, 2, 1]) 1 1,
    -- 1228: del x6
    .del 65,
    -- 1229: x7 = np.zeros((nbos, nocc, nocc), dtype=types[float])
    .zeros 68 [2, 0, 0],
    -- 1230: x7 += einsum("ia,waj->wji", t1, lu11)
    .add 68 (.ein [(6, [0, 1]), (8, [2, 1, 3])] [2, 3, 0]) 1 1,
    -- 1231: x8 = np.zeros((nocc, nocc, nocc, nvir), dtype=types[float])
    .zeros 69 [0, 0, 0, 1],
    -- 1232: x8 += einsum("wia,wjk->jkia", u11, x7)
    .add 69 (.ein [(9, [0, 1, 2]), (68, [0, 3, 4])] [3, 4, 1, 2]) 1 1,
    -- 1233: x15 += einsum("ijka->ijka", x8)
    .add 31 (.ein [(69, [0, 1, 2, 3])] [0, 1, 2, 3]) 1 1,
    -- 1234: x25 -= einsum("ijka->ijka", x8)
    .add 32 (.ein [(69, [0, 1, 2, 3])] [0, 1, 2, 3]) (-1) 1,
    -- 1235: del x8
    .del 69,
    -- 1236: rdm2_f_vooo -= einsum("ijka->aijk", x25)
    .add 27 (.ein [(32, [0, 1, 2, 3])] [3, 0, 1, 2]) (-1) 1,
    -- 1237: rdm2_f_vooo += einsum("ijka->aikj", x25)
    .add 27 (.ein [(32, [0, 1, 2, 3])] [3, 0, 2, 1]) 1 1,
    -- 1238: del x25
    .del 32,
    -- 1239: x11 = np.zeros((nocc, nvir), dtype=types[float])
    .zeros 70 [0, 1],
    -- 1240: x11 += einsum("wia,wij->ja", u11, x7)
    .add 70 (.ein [(9, [0, 1, 2]), (68, [0, 1, 3])] [3, 2]) 1 1,
    -- 1241: x13 += einsum("ia->ia", x11)
    .add 60 (.ein [(70, [0, 1])] [0, 1]) 1 1,
    -- 1242: x55 += einsum("ia->ia", x11)
    .add 62 (.ein [(70, [0, 1])] [0, 1]) 1 1,
    -- 1243: x56 += einsum("ia->ia", x11)
    .add 63 (.ein [(70, [0, 1])] [0, 1]) 1 1,
    -- 1244: del x11
    .del 70,
    -- 1245: x36 = np.zeros((nbos, nocc, nvir), dtype=types[float])
    .zeros 71 [2, 0, 1],
    -- 1246: x36 += einsum("ia,wij->wja", t1, x7)
    .add 71 (.ein [(6, [0, 1]), (68, [2, 0, 3])] [2, 3, 1]) 1 1,
    -- 1247: del x7
    .del 68,
    -- 1248: x37 = np.zeros((nbos, nocc, nvir), dtype=types[float])
    .zeros 72 [2, 0, 1],
    -- 1249: x37 -= einsum("wia->wia", x36)
    .add 72 (.ein [(71, [0, 1, 2])] [0, 1, 2]) (-1) 1,
    -- 1250: del x36
    .del 71,
    -- 1251: x10 = np.zeros((nocc, nvir), dtype=types[float])
    .zeros 73 [0, 1],
    -- 1252: x10 += einsum("ai,jiba->jb", l1, t2)
    .add 73 (.ein [(7, [0, 1]), (5, [2, 1, 3, 0])] [2, 3]) 1 1,
    -- 1253: x13 -= einsum("ia->ia", x10)
    .add 60 (.ein [(73, [0, 1])] [0, 1]) (-1) 1,
    -- 1254: x15 += einsum("ij,ka->jika", delta_oo, x13)
    .add 31 (.ein [(16, [0, 1]), (60, [2, 3])] [1, 0, 2, 3]) 1 1,
    -- 1255: rdm2_f_ovoo -= einsum("ijka->iajk", x15)
    .add 26 (.ein [(31, [0, 1, 2, 3])] [0, 3, 1, 2]) (-1) 1,
    -- 1256: rdm2_f_ovoo += einsum("ijka->iakj", x15)
    .add 26 (.ein [(31, [0, 1, 2, 3])] [0, 3, 2, 1]) 1 1,
    -- 1257: del x15
    .del 31,
    -- 1258: rdm2_f_vooo += einsum("ij,ka->aijk", delta_oo, x13)
    .add 27 (.ein [(16, [0, 1]), (60, [2, 3])] [3, 0, 1, 2]) 1 1,
    -- 1259: rdm2_f_vooo -= einsum("ij,ka->aikj", delta_oo, x13)
    .add 27 (.ein [(16, [0, 1]), (60, [2, 3])] [3, 0, 2, 1]) (-1) 1,
    -- 1260: del x13
    .del 60,
    -- 1261: x39 += einsum("ia,jb->ijab", t1, x10)
    .add 34 (.ein [(6, [0, 1]), (73, [2, 3])] [0, 2, 1, 3]) 1 1,
    -- 1262: del x10
    .del 73,
    -- 1263: x22 = np.zeros((nocc, nvir), dtype=types[float])
    .zeros 74 [0, 1],
    -- 1264: x22 += einsum("w,wia->ia", ls1, u11)
    .add 74 (.ein [(10, [0]), (9, [0, 1, 2])] [1, 2]) 1 1,
    -- 1265: x24 += einsum("ia->ia", x22)
    .add 55 (.ein [(74, [0, 1])] [0, 1]) 1 1,
    -- 1266: x55 -= einsum("ia->ia", x22)
    .add 62 (.ein [(74, [0, 1])] [0, 1]) (-1) 1,
    -- 1267: x56 -= einsum("ia->ia", x22)
    .add 63 (.ein [(74, [0, 1])] [0, 1]) (-1) 1,
    -- 1268: del x22
    .del 74,
    -- 1269: rdm2_f_vvoo += einsum("ia,jb->abji", t1, x56)
    .add 28 (.ein [(6, [0, 1]), (63, [2, 3])] [1, 3, 2, 0]) 1 1,
    -- 1270: rdm2_f_vvoo -= einsum("ia,jb->baji", t1, x56)
    .add 28 (.ein [(6, [0, 1]), (63, [2, 3])] [3, 1, 2, 0]) (-1) 1,
    -- 1271: del x56
    .del 63,
    -- 1272: x24 += einsum("ia->ia", t1)
    .add 55 (.ein [(6, [0, 1])] [0, 1]) 1 1,
    -- 1273: rdm2_f_ovoo += einsum("ij,ka->jaik", delta_oo, x24)
    .add 26 (.ein [(16, [0, 1]), (55, [2, 3])] [1, 3, 0, 2]) 1 1,
    -- 1274: rdm2_f_ovoo -= einsum("ij,ka->jaki", delta_oo, x24)
    .add 26 (.ein [(16, [0, 1]), (55, [2, 3])] [1, 3, 2, 0]) (-1) 1,
    -- 1275: rdm2_f_vooo += einsum("ij,ka->ajki", delta_oo, x24)
    .add 27 (.ein [(16, [0, 1]), (55, [2, 3])] [3, 1, 2, 0]) 1 1,
    -- 1276: rdm2_f_vooo -= einsum("ij,ka->ajik", delta_oo, x24)
    .add 27 (.ein [(16, [0, 1]), (55, [2, 3])] [3, 1, 0, 2]) (-1) 1,
    -- 1277: del x24
    .del 55,
    -- 1278: x26 = np.zeros((nocc, nocc, nvir, nvir), dtype=types[float])
    .zeros 75 [0, 0, 1, 1],
    -- 1279: x26 += einsum("wai,wjb->ijab", lu11, u11)
    .add 75 (.ein [(8, [0, 1, 2]), (9, [0, 3, 4])] [2, 3, 1, 4]) 1 1,
    -- 1280: rdm2_f_ovov -= einsum("ijab->ibja", x26)
    .add 41 (.ein [(75, [0, 1, 2, 3])] [0, 3, 1, 2]) (-1) 1,
    -- 1281: rdm2_f_ovvo += einsum("ijab->ibaj", x26)
    .add 42 (.ein [(75, [0, 1, 2, 3])] [0, 3, 2, 1]) 1 1,
    -- 1282: rdm2_f_voov += einsum("ijab->bija", x26)
    .add 43 (.ein [(75, [0, 1, 2, 3])] [3, 0, 1, 2]) 1 1,
    -- 1283: rdm2_f_vovo -= einsum("ijab->biaj", x26)
    .add 44 (.ein [(75, [0, 1, 2, 3])] [3, 0, 2, 1]) (-1) 1,
    -- 1284: del x26
    .del 75,
    -- 1285: x27 = np.zeros((nocc, nocc, nvir, nvir), dtype=types[float])
    .zeros 76 [0, 0, 1, 1],
    -- 1286: x27 -= einsum("abij,kjca->ikbc", l2, t2)
    .add 76 (.ein [(4, [0, 1, 2, 3]), (5, [4, 3, 5, 0])] [2, 4, 1, 5]) (-1) 1,
    -- 1287: x42 = np.zeros((nocc, nocc, nvir, nvir), dtype=types[float])
    .zeros 77 [0, 0, 1, 1],
    -- 1288: x42 += einsum("ijab,jkbc->ikac", t2, x27)
    .add 77 (.ein [(5, [0, 1, 2, 3]), (76, [1, 4, 3, 5])] [0, 4, 2, 5]) 1 1,
    -- 1289: x43 += einsum("ijab->ijab", x42)
    .add 67 (.ein [(77, [0, 1, 2, 3])] [0, 1, 2, 3]) 1 1,
    -- 1290: del x42
    .del 77,
    -- 1291: x63 = np.zeros((nocc, nvir, nvir, nvir), dtype=types[float])
    .zeros 78 [0, 1, 1, 1],
    -- 1292: x63 += einsum("ia,ijbc->jbac", t1, x27)
    .add 78 (.ein [(6, [0, 1]), (76, [0, 2, 3, 4])] [2, 3, 1, 4]) 1 1,
    -- 1293: x65 = np.zeros((nocc, nvir, nvir, nvir), dtype=types[float])
    .zeros 79 [0, 1, 1, 1],
    -- 1294: x65 -= einsum("iabc->iabc", x63)
    .add 79 (.ein [(78, [0, 1, 2, 3])] [0, 1, 2, 3]) (-1) 1,
    -- 1295: del x63
    .del 78,
    -- 1296: rdm2_f_ovov -= einsum("ijab->ibja", x27)
    .add 41 (.ein [(76, [0, 1, 2, 3])] [0, 3, 1, 2]) (-1) 1,
    -- 1297: rdm2_f_ovvo += einsum("ijab->ibaj", x27)
    .add 42 (.ein [(76, [0, 1, 2, 3])] [0, 3, 2, 1]) 1 1,
    -- 1298: rdm2_f_voov += einsum("ijab->bija", x27)
    .add 43 (.ein [(76, [0, 1, 2, 3])] [3, 0, 1, 2]) 1 1,
    -- 1299: rdm2_f_vovo -= einsum("ijab->biaj", x27)
    .add 44 (.ein [(76, [0, 1, 2, 3])] [3, 0, 2, 1]) (-1) 1,
    -- 1300: del x27
    .del 76,
    -- 1301: x29 = np.zeros((nvir, nvir), dtype=types[float])
    .zeros 80 [1, 1],
    -- 1302: x29 += einsum("ai,ib->ab", l1, t1)
    .add 80 (.ein [(7, [0, 1]), (6, [1, 2])] [0, 2]) 1 1,
    -- 1303: x32 = np.zeros((nvir, nvir), dtype=types[float])
    .zeros 81 [1, 1],
    -- 1304: x32 += einsum("ab->ab", x29)
    .add 81 (.ein [(80, [0, 1])] [0, 1]) 1 1,
    -- 1305: x33 = np.zeros((nvir, nvir), dtype=types[float])
    .zeros 82 [1, 1],
    -- 1306: x33 += einsum("ab->ab", x29) * 2
    .add 82 (.ein [(80, [0, 1])] [0, 1]) 2 1,
    -- 1307: x64 = np.zeros((nvir, nvir), dtype=types[float])
    .zeros 83 [1, 1],
    -- 1308: x64 += einsum("ab->ab", x29)
    .add 83 (.ein [(80, [0, 1])] [0, 1]) 1 1,
    -- 1309: del x29
    .del 80,
    -- 1310: x30 = np.zeros((nvir, nvir), dtype=types[float])
    .zeros 84 [1, 1],
    -- 1311: x30 += einsum("wai,wib->ab", lu11, u11)
    .add 84 (.ein [(8, [0, 1, 2]), (9, [0, 2, 3])] [1, 3]) 1 1,
    -- 1312: x32 += einsum("ab->ab", x30)
    .add 81 (.ein [(84, [0, 1])] [0, 1]) 1 1,
    -- 1313: x33 += einsum("ab->ab", x30) * 2
    .add 82 (.ein [(84, [0, 1])] [0, 1]) 2 1,
    -- 1314: x41 = np.zeros((nocc, nocc, nvir, nvir), dtype=types[float])
    .zeros 85 [0, 0, 1, 1],
    -- 1315: x41 += einsum("ab,ijca->ijcb", x30, t2)
    .add 85 (.ein [(84, [0, 1]), (5, [2, 3, 4, 0])] [2, 3, 4, 1]) 1 1,
    -- 1316: x43 -= einsum("ijab->ijab", x41)
    .add 67 (.ein [(85, [0, 1, 2, 3])] [0, 1, 2, 3]) (-1) 1,
    -- 1317: del x41
    .del 85,
    -- 1318: rdm2_f_vvoo -= einsum("ijab->abji", x43)
    .add 28 (.ein [(67, [0, 1, 2, 3])] [2, 3, 1, 0]) (-1) 1,
    -- 1319: rdm2_f_vvoo += einsum("ijab->baji", x43)
    .add 28 (.ein [(67, [0, 1, 2, 3])] [3, 2, 1, 0]) 1 1,
    -- 1320: del x43
    .del 67,
    -- 1321: x64 += einsum("ab->ab", x30)
    .add 83 (.ein [(84, [0, 1])] [0, 1]) 1 1,
    -- 1322: del x30
    .del 84,
    -- 1323: x65 += einsum("ia,bc->ibac", t1, x64)
    .add 79 (.ein [(6, [0, 1]), (83, [2, 3])] [0, 2, 1, 3]) 1 1,
    -- 1324: del x64
    .del 83,
    -- 1325: x31 = np.zeros((nvir, nvir), dtype=types[float])
    .zeros 86 [1, 1],
    -- 1326: x31 -= einsum("abij,ijca->bc", l2, t2)
    .add 86 (.ein [(4, [0, 1, 2, 3]), (5, [2, 3, 4, 0])] [1, 4]) (-1) 1,
    -- 1327: x32 += einsum("ab->ab", x31) * 0.5
    .add 81 (.ein [(86, [0, 1])] [0, 1]) 1 2,
    -- 1328: rdm2_f_ovov += einsum("ij,ab->jbia", delta_oo, x32)
    .add 41 (.ein [(16, [0, 1]), (81, [2, 3])] [1, 3, 0, 2]) 1 1,
    -- 1329: rdm2_f_voov += einsum("ij,ab->bjia", delta_oo, x32) * -1
    .add 43 (.ein [(16, [0, 1]), (81, [2, 3])] [3, 1, 0, 2]) (-1) 1,
    -- 1330: del x32
    .del 81,
    -- 1331: x33 += einsum("ab->ab", x31)
    .add 82 (.ein [(86, [0, 1])] [0, 1]) 1 1,
    -- 1332: rdm2_f_ovvo += einsum("ij,ab->jbai", delta_oo, x33) * -0.5
    .add 42 (.ein [(16, [0, 1]), (82, [2, 3])] [1, 3, 2, 0]) (-1) 2,
    -- 1333: rdm2_f_vovo += einsum("ij,ab->bjai", delta_oo, x33) * 0.5
    .add 44 (.ein [(16, [0, 1]), (82, [2, 3])] [3, 1, 2, 0]) 1 2,
    -- 1334: del x33
    .del 82,
    -- 1335: x49 = np.zeros((nocc, nocc, nvir, nvir), dtype=types[float])
    .zeros 87 [0, 0, 1, 1],
    -- 1336: x49 += einsum("ab,ijca->ijcb", x31, t2)
    .add 87 (.ein [(86, [0, 1]), (5, [2, 3, 4, 0])] [2, 3, 4, 1]) 1 1,
    -- 1337: rdm2_f_vvoo += einsum("ijab->abji", x49) * 0.5
    .add 28 (.ein [(87, [0, 1, 2, 3])] [2, 3, 1, 0]) 1 2,
    -- 1338: rdm2_f_vvoo += einsum("ijab->baji", x49) * -0.5
    .add 28 (.ein [(87, [0, 1, 2, 3])] [3, 2, 1, 0]) (-1) 2,
    -- 1339: del x49
    .del 87,
    -- 1340: rdm2_f_vvov += einsum("ia,bc->acib", t1, x31) * 0.5
    .add 39 (.ein [(6, [0, 1]), (86, [2, 3])] [1, 3, 0, 2]) 1 2,
    -- 1341: rdm2_f_vvov += einsum("ia,bc->caib", t1, x31) * -0.5
    .add 39 (.ein [(6, [0, 1]), (86, [2, 3])] [3, 1, 0, 2]) (-1) 2,
    -- 1342: rdm2_f_vvvo += einsum("ia,bc->acbi", t1, x31) * -0.5
    .add 40 (.ein [(6, [0, 1]), (86, [2, 3])] [1, 3, 2, 0]) (-1) 2,
    -- 1343: rdm2_f_vvvo += einsum("ia,bc->cabi", t1, x31) * 0.5
    .add 40 (.ein [(6, [0, 1]), (86, [2, 3])] [3, 1, 2, 0]) 1 2,
    -- 1344: del x31
    .del 86,
    -- 1345: x35 = np.zeros((nbos, nocc, nvir), dtype=types[float])
    .zeros 88 [2, 0, 1],
    -- 1346: x35 += einsum("wai,jiba->wjb", lu11, t2)
    .add 88 (.ein [(8, [0, 1, 2]), (5, [3, 2, 4, 1])] [0, 3, 4]) 1 1,
    -- 1347: x37 += einsum("wia->wia", x35)
    .add 72 (.ein [(88, [0, 1, 2])] [0, 1, 2]) 1 1,
    -- 1348: del x35
    .del 88,
    -- 1349: x38 = np.zeros((nocc, nocc, nvir, nvir), dtype=types[float])
    .zeros 89 [0, 0, 1, 1],
    -- 1350: x38 += einsum("wia,wjb->jiba", u11, x37)
    .add 89 (.ein [(9, [0, 1, 2]), (72, [0, 3, 4])] [3, 1, 4, 2]) 1 1,
    -- 1351: del x37
    .del 72,
    -- 1352: x39 += einsum("ijab->ijab", x38)
    .add 34 (.ein [(89, [0, 1, 2, 3])] [0, 1, 2, 3]) 1 1,
    -- 1353: del x38
    .del 89,
    -- 1354: rdm2_f_vvoo += einsum("ijab->abij", x39)
    .add 28 (.ein [(34, [0, 1, 2, 3])] [2, 3, 0, 1]) 1 1,
    -- 1355: rdm2_f_vvoo -= einsum("ijab->baij", x39)
    .add 28 (.ein [(34, [0, 1, 2, 3])] [3, 2, 0, 1]) (-1) 1,
    -- 1356: rdm2_f_vvoo -= einsum("ijab->abji", x39)
    .add 28 (.ein [(34, [0, 1, 2, 3])] [2, 3, 1, 0]) (-1) 1,
    -- 1357: rdm2_f_vvoo += einsum("ijab->baji", x39)
    .add 28 (.ein [(34, [0, 1, 2, 3])] [3, 2, 1, 0]) 1 1,
    -- 1358: del x39
    .del 34,
    -- 1359: x47 = np.zeros((nbos, nocc, nvir), dtype=types[float])
    .zeros 90 [2, 0, 1],
    -- 1360: x47 += einsum("wx,xia->wia", ls2, u11)
    .add 90 (.ein [(11, [0, 1]), (9, [1, 2, 3])] [0, 2, 3]) 1 1,
    -- 1361: x48 = np.zeros((nocc, nocc, nvir, nvir), dtype=types[float])
    .zeros 91 [0, 0, 1, 1],
    -- 1362: x48 += einsum("wia,wjb->jiba", u11, x47)
    .add 91 (.ein [(9, [0, 1, 2]), (90, [0, 3, 4])] [3, 1, 4, 2]) 1 1,
    -- 1363: del x47
    .del 90,
    -- 1364: rdm2_f_vvoo -= einsum("ijab->baij", x48)
    .add 28 (.ein [(91, [0, 1, 2, 3])] [3, 2, 0, 1]) (-1) 1,
    -- 1365: rdm2_f_vvoo += einsum("ijab->baji", x48)
    .add 28 (.ein [(91, [0, 1, 2, 3])] [3, 2, 1, 0]) 1 1,
    -- 1366: del x48
    .del 91,
    -- 1367: x55 -= einsum("ia->ia", t1)
    .add 62 (.ein [(6, [0, 1])] [0, 1]) (-1) 1,
    -- 1368: rdm2_f_vvoo += einsum("ia,jb->baij", t1, x55)
    .add 28 (.ein [(6, [0, 1]), (62, [2, 3])] [3, 1, 0, 2]) 1 1,
    -- 1369: rdm2_f_vvoo -= einsum("ia,jb->abij", t1, x55)
    .add 28 (.ein [(6, [0, 1]), (62, [2, 3])] [1, 3, 0, 2]) (-1) 1,
    -- 1370: del x55
    .del 62,
    -- 1371: x57 = np.zeros((nocc, nvir, nvir, nvir), dtype=types[float])
    .zeros 92 [0, 1, 1, 1],
    -- 1372: x57 += einsum("ia,bcji->jbca", t1, l2)
    .add 92 (.ein [(6, [0, 1]), (4, [2, 3, 4, 0])] [4, 2, 3, 1]) 1 1,
    -- 1373: rdm2_f_ovvv = np.zeros((nocc, nvir, nvir, nvir), dtype=types[float])
    .zeros 93 [0, 1, 1, 1],
    -- 1374: rdm2_f_ovvv -= einsum("iabc->icba", x57)
    .add 93 (.ein [(92, [0, 1, 2, 3])] [0, 3, 2, 1]) (-1) 1,
    -- 1375: rdm2_f_vovv = np.zeros((nvir, nocc, nvir, nvir), dtype=types[float])
    .zeros 94 [1, 0, 1, 1],
    -- 1376: rdm2_f_vovv += einsum("iabc->ciba", x57)
    .add 94 (.ein [(92, [0, 1, 2, 3])] [3, 0, 2, 1]) 1 1,
    -- 1377: rdm2_f_vvvv = np.zeros((nvir, nvir, nvir, nvir), dtype=types[float])
    .zeros 95 [1, 1, 1, 1],
    -- 1378: rdm2_f_vvvv -= einsum("ia,ibcd->adcb", t1, x57)
    .add 95 (.ein [(6, [0, 1]), (92, [0, 2, 3, 4])] [1, 4, 3, 2]) (-1) 1,
    -- 1379: del x57
    .del 92,
    -- 1380: x60 = np.zeros((nocc, nvir, nvir, nvir), dtype=types[float])
    .zeros 96 [0, 1, 1, 1],
    -- 1381: x60 += einsum("ai,jibc->jabc", l1, t2)
    .add 96 (.ein [(7, [0, 1]), (5, [2, 1, 3, 4])] [2, 0, 3, 4]) 1 1,
    -- 1382: rdm2_f_vvov -= einsum("iabc->cbia", x60)
    .add 39 (.ein [(96, [0, 1, 2, 3])] [3, 2, 0, 1]) (-1) 1,
    -- 1383: rdm2_f_vvvo += einsum("iabc->cbai", x60)
    .add 40 (.ein [(96, [0, 1, 2, 3])] [3, 2, 1, 0]) 1 1,
    -- 1384: del x60
    .del 96,
    -- 1385: x61 = np.zeros((nbos, nvir, nvir), dtype=types[float])
    .zeros 97 [2, 1, 1],
    -- 1386: x61 += einsum("ia,wbi->wba", t1, lu11)
    .add 97 (.ein [(6, [0, 1]), (8, [2, 3, 0])] [2, 3, 1]) 1 1,
    -- 1387: x62 = np.zeros((nocc, nvir, nvir, nvir), dtype=types[float])
    .zeros 98 [0, 1, 1, 1],
    -- 1388: x62 += einsum("wia,wbc->ibca", u11, x61)
    .add 98 (.ein [(9, [0, 1, 2]), (97, [0, 3, 4])] [1, 3, 4, 2]) 1 1,
    -- 1389: del x61
    .del 97,
    -- 1390: x65 -= einsum("iabc->iabc", x62)
    .add 79 (.ein [(98, [0, 1, 2, 3])] [0, 1, 2, 3]) (-1) 1,
    -- 1391: del x62
    .del 98,
    -- 1392: rdm2_f_vvov += einsum("iabc->bcia", x65)
    .add 39 (.ein [(79, [0, 1, 2, 3])] [2, 3, 0, 1]) 1 1,
    -- 1393: rdm2_f_vvov -= einsum("iabc->cbia", x65)
    .add 39 (.ein [(79, [0, 1, 2, 3])] [3, 2, 0, 1]) (-1) 1,
    -- 1394: rdm2_f_vvvo -= einsum("iabc->bcai", x65)
    .add 40 (.ein [(79, [0, 1, 2, 3])] [2, 3, 1, 0]) (-1) 1,
    -- 1395: rdm2_f_vvvo += einsum("iabc->cbai", x65)
    .add 40 (.ein [(79, [0, 1, 2, 3])] [3, 2, 1, 0]) 1 1,
    -- 1396: del x65
    .del 79,
    -- 1397: rdm2_f_oooo += einsum("ij,kl->jlik", delta_oo, delta_oo)
    .add 22 (.ein [(16, [0, 1]), (16, [2, 3])] [1, 3, 0, 2]) 1 1,
    -- 1398: rdm2_f_oooo -= einsum("ij,kl->lijk", delta_oo, delta_oo)
    .add 22 (.ein [(16, [0, 1]), (16, [2, 3])] [3, 0, 1, 2]) (-1) 1,
    -- 1399: rdm2_f_ooov += einsum("ij,ak->jkia", delta_oo, l1)
    .add 46 (.ein [(16, [0, 1]), (7, [2, 3])] [1, 3, 0, 2]) 1 1,
    -- 1400: rdm2_f_ooov -= einsum("ij,ak->kjia", delta_oo, l1)
    .add 46 (.ein [(16, [0, 1]), (7, [2, 3])] [3, 1, 0, 2]) (-1) 1,
    -- 1401: rdm2_f_oovo -= einsum("ij,ak->jkai", delta_oo, l1)
    .add 47 (.ein [(16, [0, 1]), (7, [2, 3])] [1, 3, 2, 0]) (-1) 1,
    -- 1402: rdm2_f_oovo += einsum("ij,ak->kjai", delta_oo, l1)
    .add 47 (.ein [(16, [0, 1]), (7, [2, 3])] [3, 1, 2, 0]) 1 1,
    -- 1403: rdm2_f_oovv = np.zeros((nocc, nocc, nvir, nvir), dtype=types[float])
    .zeros 99 [0, 0, 1, 1],
    -- 1404: rdm2_f_oovv += einsum("abij->jiba", l2)
    .add 99 (.ein [(4, [0, 1, 2, 3])] [3, 2, 1, 0]) 1 1,
    -- 1405: rdm2_f_ovov -= einsum("ai,jb->ibja", l1, t1)
    .add 41 (.ein [(7, [0, 1]), (6, [2, 3])] [1, 3, 2, 0]) (-1) 1,
    -- 1406: rdm2_f_ovvo += einsum("ai,jb->ibaj", l1, t1)
    .add 42 (.ein [(7, [0, 1]), (6, [2, 3])] [1, 3, 0, 2]) 1 1,
    -- 1407: rdm2_f_voov += einsum("ai,jb->bija", l1, t1)
    .add 43 (.ein [(7, [0, 1]), (6, [2, 3])] [3, 1, 2, 0]) 1 1,
    -- 1408: rdm2_f_vovo -= einsum("ai,jb->biaj", l1, t1)
    .add 44 (.ein [(7, [0, 1]), (6, [2, 3])] [3, 1, 0, 2]) (-1) 1,
    -- 1409: rdm2_f_vvoo += einsum("ijab->baji", t2)
    .add 28 (.ein [(5, [0, 1, 2, 3])] [3, 2, 1, 0]) 1 1,
    -- 1410: rdm2_f_vvvv += einsum("abij,ijcd->dcba", l2, t2) * 0.5
    .add 95 (.ein [(4, [0, 1, 2, 3]), (5, [2, 3, 4, 5])] [5, 4, 1, 0]) 1 2,
    -- 1414: rdm2_f = np.transpose(rdm2_f, (0, 2, 1, 3))
    .set 100 (.tr 22 [0, 2, 1, 3]) 1 1,
    .set 101 (.tr 46 [0, 2, 1, 3]) 1 1,
    .set 102 (.tr 26 [0, 2, 1, 3]) 1 1,
    .set 103 (.tr 47 [0, 2, 1, 3]) 1 1,
    .set 104 (.tr 27 [0, 2, 1, 3]) 1 1,
    .set 105 (.tr 41 [0, 2, 1, 3]) 1 1,
    .set 106 (.tr 99 [0, 2, 1, 3]) 1 1,
    .set 107 (.tr 42 [0, 2, 1, 3]) 1 1,
    .set 108 (.tr 43 [0, 2, 1, 3]) 1 1,
    .set 109 (.tr 28 [0, 2, 1, 3]) 1 1,
    .set 110 (.tr 44 [0, 2, 1, 3]) 1 1,
    .set 111 (.tr 93 [0, 2, 1, 3]) 1 1,
    .set 112 (.tr 39 [0, 2, 1, 3]) 1 1,
    .set 113 (.tr 94 [0, 2, 1, 3]) 1 1,
    .set 114 (.tr 40 [0, 2, 1, 3]) 1 1,
    .set 115 (.tr 95 [0, 2, 1, 3]) 1 1
  ]
  ret := [(chars! "rdm2_f.oooo", 100), (chars! "rdm2_f.ooov", 101), (chars! "rdm2_f.oovo", 102), (chars! "rdm2_f.ovoo", 103), (chars! "rdm2_f.vooo", 104), (chars! "rdm2_f.oovv", 105), (chars! "rdm2_f.ovov", 106), (chars! "rdm2_f.ovvo", 107), (chars! "rdm2_f.voov", 108), (chars! "rdm2_f.vovo", 109), (chars! "rdm2_f.vvoo", 110), (chars! "rdm2_f.ovvv", 111), (chars! "rdm2_f.vovv", 112), (chars! "rdm2_f.vvov", 113), (chars! "rdm2_f.vvvo", 114), (chars! "rdm2_f.vvvv", 115)]

/-- codegen/GCCSD_SD_1_1.py:1418-1437 `make_sing_b_dm`. -/
def make_sing_b_dm : GenFun where
  args := [chars! "g.boo", chars! "g.bvo", chars! "g.bov", chars! "g.bvv", chars! "ls1", chars! "s2", chars! "l1", chars! "u11", chars! "s1"]
  body := [
    -- 1420: gc = Namespace(
    .set 9 (.tr 0 [0, 2, 1]) 1 1,
    .set 10 (.tr 1 [0, 2, 1]) 1 1,
    .set 11 (.tr 2 [0, 2, 1]) 1 1,
    .set 12 (.tr 3 [0, 2, 1]) 1 1,
    -- 1428: dm_b_cre = np.zeros((nbos), dtype=types[float])
    .zeros 13 [2],
    -- 1429: dm_b_cre += einsum("w->w", ls1)
    .add 13 (.ein [(4, [0])] [0]) 1 1,
    -- 1430: dm_b_des = np.zeros((nbos), dtype=types[float])
    .zeros 14 [2],
    -- 1431: dm_b_des += einsum("w,xw->x", ls1, s2)
    .add 14 (.ein [(4, [0]), (5, [1, 0])] [1]) 1 1,
    -- 1432: dm_b_des += einsum("ai,wia->w", l1, u11)
    .add 14 (.ein [(6, [0, 1]), (7, [2, 1, 0])] [2]) 1 1,
    -- 1433: dm_b_des += einsum("w->w", s1)
    .add 14 (.ein [(8, [0])] [0]) 1 1
  ]
  ret := [(chars! "dm_b.0", 13), (chars! "dm_b.1", 14)]

/-- codegen/GCCSD_SD_1_1.py:1439-1454 `make_rdm1_b`. -/
def make_rdm1_b : GenFun where
  args := [chars! "g.boo", chars! "g.bvo", chars! "g.bov", chars! "g.bvv", chars! "ls2", chars! "s2", chars! "ls1", chars! "s1", chars! "lu11", chars! "u11"]
  body := [
    -- 1441: gc = Namespace(
    .set 10 (.tr 0 [0, 2, 1]) 1 1,
    .set 11 (.tr 1 [0, 2, 1]) 1 1,
    .set 12 (.tr 2 [0, 2, 1]) 1 1,
    .set 13 (.tr 3 [0, 2, 1]) 1 1,
    -- 1449: rdm1_b = np.zeros((nbos, nbos), dtype=types[float])
    .zeros 14 [2, 2],
    -- 1450: rdm1_b += einsum("wx,yx->wy", ls2, s2)
    .add 14 (.ein [(4, [0, 1]), (5, [2, 1])] [0, 2]) 1 1,
    -- 1451: rdm1_b += einsum("w,x->wx", ls1, s1)
    .add 14 (.ein [(6, [0]), (7, [1])] [0, 1]) 1 1,
    -- 1452: rdm1_b += einsum("wai,xia->wx", lu11, u11)
    .add 14 (.ein [(8, [0, 1, 2]), (9, [3, 2, 1])] [0, 3]) 1 1
  ]
  ret := [(chars! "rdm1_b", 14)]

/-- codegen/GCCSD_SD_1_1.py:1456-1597 `make_eb_coup_rdm`. -/
def make_eb_coup_rdm : GenFun where
  args := [chars! "g.boo", chars! "g.bvo", chars! "g.bov", chars! "g.bvv", chars! "t1", chars! "lu11", chars! "u11", chars! "l1", chars! "s2", chars! "l2", chars! "t2", chars! "s1", chars! "ls1", chars! "ls2"]
  body := [
    -- 1458: gc = Namespace(
    .set 14 (.tr 0 [0, 2, 1]) 1 1,
    .set 15 (.tr 1 [0, 2, 1]) 1 1,
    .set 16 (.tr 2 [0, 2, 1]) 1 1,
    .set 17 (.tr 3 [0, 2, 1]) 1 1,
    -- 1465: delta_oo = np.eye(nocc)
    .eye 18 0,
    -- 1466: delta_vv = np.eye(nvir)
    .eye 19 1,
    -- 1469: x0 = np.zeros((nbos, nocc, nocc), dtype=types[float])
    .zeros 20 [2, 0, 0],
    -- 1470: x0 += einsum("ia,waj->wji", t1, lu11)
    .add 20 (.ein [(4, [0, 1]), (5, [2, 1, 3])] [2, 3, 0]) 1 1,
    -- 1471: x21 = np.zeros((nocc, nvir), dtype=types[float])
    .zeros 21 [0, 1],
    -- 1472: x21 += einsum("wia,wij->ja", u11, x0)
    .add 21 (.ein [(6, [0, 1, 2]), (20, [0, 1, 3])] [3, 2]) 1 1,
    -- 1473: rdm_eb_cre_oo = np.zeros((nbos, nocc, nocc), dtype=types[float])
    .zeros 22 [2, 0, 0],
    -- 1474: rdm_eb_cre_oo -= einsum("wij->wji", x0)
    .add 22 (.ein [(20, [0, 1, 2])] [0, 2, 1]) (-1) 1,
    -- 1475: rdm_eb_cre_ov = np.zeros((nbos, nocc, nvir), dtype=types[float])
    .zeros 23 [2, 0, 1],
    -- 1476: rdm_eb_cre_ov -= einsum("ia,wij->wja", t1, x0)
    .add 23 (.ein [(4, [0, 1]), (20, [2, 0, 3])] [2, 3, 1]) (-1) 1,
    -- 1477: del x0
    .del 20,
    -- 1478: x1 = np.zeros((nbos, nocc, nocc), dtype=types[float])
    .zeros 24 [2, 0, 0],
    -- 1479: x1 += einsum("ai,wja->wij", l1, u11)
    .add 24 (.ein [(7, [0, 1]), (6, [2, 3, 0])] [2, 1, 3]) 1 1,
    -- 1480: x17 = np.zeros((nbos, nocc, nocc), dtype=types[float])
    .zeros 25 [2, 0, 0],
    -- 1481: x17 += einsum("wij->wij", x1)
    .add 25 (.ein [(24, [0, 1, 2])] [0, 1, 2]) 1 1,
    -- 1482: rdm_eb_des_oo = np.zeros((nbos, nocc, nocc), dtype=types[float])
    .zeros 26 [2, 0, 0],
    -- 1483: rdm_eb_des_oo -= einsum("wij->wji", x1)
    .add 26 (.ein [(24, [0, 1, 2])] [0, 2, 1]) (-1) 1,
    -- 1484: del x1
    .del 24,
    -- 1485: x2 = np.zeros((nbos, nocc, nvir), dtype=types[float])
    .zeros 27 [2, 0, 1],
    -- 1486: x2 += einsum("wx,xai->wia", s2, lu11)
    .add 27 (.ein [(8, [0, 1]), (5, [1, 2, 3])] [0, 3, 2]) 1 1,
    -- 1487: x4 = np.zeros((nbos, nocc, nvir), dtype=types[float])
    .zeros 28 [2, 0, 1],
    -- 1488: x4 += einsum("wia->wia", x2)
    .add 28 (.ein [(27, [0, 1, 2])] [0, 1, 2]) 1 1,
    -- 1489: rdm_eb_des_vo = np.zeros((nbos, nvir, nocc), dtype=types[float])
    .zeros 29 [2, 1, 0],
    -- 1490: rdm_eb_des_vo += einsum("wia->wai", x2)
    .add 29 (.ein [(27, [0, 1, 2])] [0, 2, 1]) 1 1,
    -- 1491: del x2
    .del 27,
    -- 1492: x3 = np.zeros((nbos, nocc, nvir), dtype=types[float])
    .zeros 30 [2, 0, 1],
    -- 1493: x3 -= einsum("wia,abji->wjb", u11, l2)
    .add 30 (.ein [(6, [0, 1, 2]), (9, [2, 3, 4, 1])] [0, 4, 3]) (-1) 1,
    -- 1494: x4 += einsum("wia->wia", x3)
    .add 28 (.ein [(30, [0, 1, 2])] [0, 1, 2]) 1 1,
    -- 1495: x5 = np.zeros((nbos, nocc, nocc), dtype=types[float])
    .zeros 31 [2, 0, 0],
    -- 1496: x5 += einsum("ia,wja->wij", t1, x4)
    .add 31 (.ein [(4, [0, 1]), (28, [2, 3, 1])] [2, 0, 3]) 1 1,
    -- 1497: x17 += einsum("wij->wji", x5)
    .add 25 (.ein [(31, [0, 1, 2])] [0, 2, 1]) 1 1,
    -- 1498: rdm_eb_des_ov = np.zeros((nbos, nocc, nvir), dtype=types[float])
    .zeros 32 [2, 0, 1],
    -- 1499: rdm_eb_des_ov -= einsum("ia,wij->wja", t1, x17)
    .add 32 (.ein [(4, [0, 1]), (25, [2, 0, 3])] [2, 3, 1]) (-1) 1,
    -- 1500: del x17
    .del 25,
    -- 1501: rdm_eb_des_oo -= einsum("wij->wij", x5)
    .add 26 (.ein [(31, [0, 1, 2])] [0, 1, 2]) (-1) 1,
    -- 1502: del x5
    .del 31,
    -- 1503: rdm_eb_des_ov += einsum("wia,ijab->wjb", x4, t2)
    .add 32 (.ein [(28, [0, 1, 2]), (10, [1, 3, 2, 4])] [0, 3, 4]) 1 1,
    -- 1504: rdm_eb_des_vv = np.zeros((nbos, nvir, nvir), dtype=types[float])
    .zeros 33 [2, 1, 1],
    -- 1505: rdm_eb_des_vv += einsum("ia,wib->wba", t1, x4)
    .add 33 (.ein [(4, [0, 1]), (28, [2, 0, 3])] [2, 3, 1]) 1 1,
    -- 1506: del x4
    .del 28,
    -- 1507: rdm_eb_des_vo += einsum("wia->wai", x3)
    .add 29 (.ein [(30, [0, 1, 2])] [0, 2, 1]) 1 1,
    -- 1508: del x3
    .del 30,
    -- 1509: x6 = np.zeros((nocc, nocc), dtype=types[float])
    .zeros 34 [0, 0],
    -- 1510: x6 += einsum("ai,ja->ij", l1, t1)
    .add 34 (.ein [(7, [0, 1]), (4, [2, 0])] [1, 2]) 1 1,
    -- 1511: x9 = np.zeros((nocc, nocc), dtype=types[float])
    .zeros 35 [0, 0],
    -- 1512: x9 += einsum("ij->ij", x6) * 2
    .add 35 (.ein [(34, [0, 1])] [0, 1]) 2 1,
    -- 1513: x16 = np.zeros((nocc, nocc), dtype=types[float])
    .zeros 36 [0, 0],
    -- 1514: x16 += einsum("ij->ij", x6)
    .add 36 (.ein [(34, [0, 1])] [0, 1]) 1 1,
    -- 1515: x20 = np.zeros((nocc, nocc), dtype=types[float])
    .zeros 37 [0, 0],
    -- 1516: x20 += einsum("ij->ij", x6) * 1.9999999999999987
    .add 37 (.ein [(34, [0, 1])] [0, 1]) 2 1,
    -- 1517: del x6
    .del 34,
    -- 1518: x7 = np.zeros((nocc, nocc), dtype=types[float])
    .zeros 38 [0, 0],
    -- 1519: x7 += einsum("wai,wja->ij", lu11, u11)
    .add 38 (.ein [(5, [0, 1, 2]), (6, [0, 3, 1])] [2, 3]) 1 1,
    -- 1520: x9 += einsum("ij->ij", x7) * 2
    .add 35 (.ein [(38, [0, 1])] [0, 1]) 2 1,
    -- 1521: x16 += einsum("ij->ij", x7)
    .add 36 (.ein [(38, [0, 1])] [0, 1]) 1 1,
    -- 1522: x20 += einsum("ij->ij", x7) * 1.9999999999999987
    .add 37 (.ein [(38, [0, 1])] [0, 1]) 2 1,
    -- 1523: del x7
    .del 38,
    -- 1524: x8 = np.zeros((nocc, nocc), dtype=types[float])
    .zeros 39 [0, 0],
    -- 1525: x8 += einsum("abij,kjab->ik", l2, t2)
    .add 39 (.ein [(9, [0, 1, 2, 3]), (10, [4, 3, 0, 1])] [2, 4]) 1 1,
    -- 1526: x9 += einsum("ij->ij", x8)
    .add 35 (.ein [(39, [0, 1])] [0, 1]) 1 1,
    -- 1527: x16 += einsum("ij->ij", x8) * 0.5
    .add 36 (.ein [(39, [0, 1])] [0, 1]) 1 2,
    -- 1528: rdm_eb_des_ov += einsum("ij,wia->wja", x16, u11) * -1
    .add 32 (.ein [(36, [0, 1]), (6, [2, 0, 3])] [2, 1, 3]) (-1) 1,
    -- 1529: del x16
    .del 36,
    -- 1530: x20 += einsum("ij->ij", x8)
    .add 37 (.ein [(39, [0, 1])] [0, 1]) 1 1,
    -- 1531: del x8
    .del 39,
    -- 1532: x21 += einsum("ia,ij->ja", t1, x20) * 0.5000000000000003
    .add 21 (.ein [(4, [0, 1]), (37, [0, 2])] [2, 1]) 1 2,
    -- 1533: del x20
    .del 37,
    -- 1534: x9 += einsum("ij->ji", delta_oo) * -2
    .add 35 (.ein [(18, [0, 1])] [1, 0]) (-2) 1,
    -- 1535: rdm_eb_des_oo += einsum("w,ij->wji", s1, x9) * -0.5
    .add 26 (.ein [(11, [0]), (35, [1, 2])] [0, 2, 1]) (-1) 2,
    -- 1536: del x9
    .del 35,
    -- 1537: x10 = np.zeros((nbos), dtype=types[float])
    .zeros 40 [2],
    -- 1538: x10 += einsum("w,xw->x", ls1, s2)
    .add 40 (.ein [(12, [0]), (8, [1, 0])] [1]) 1 1,
    -- 1539: x12 = np.zeros((nbos), dtype=types[float])
    .zeros 41 [2],
    -- 1540: x12 += einsum("w->w", x10)
    .add 41 (.ein [(40, [0])] [0]) 1 1,
    -- 1541: del x10
    .del 40,
    -- 1542: x11 = np.zeros((nbos), dtype=types[float])
    .zeros 42 [2],
    -- 1543: x11 += einsum("ai,wia->w", l1, u11)
    .add 42 (.ein [(7, [0, 1]), (6, [2, 1, 0])] [2]) 1 1,
    -- 1544: x12 += einsum("w->w", x11)
    .add 41 (.ein [(42, [0])] [0]) 1 1,
    -- 1545: del x11
    .del 42,
    -- 1546: rdm_eb_des_oo += einsum("w,ij->wji", x12, delta_oo)
    .add 26 (.ein [(41, [0]), (18, [1, 2])] [0, 2, 1]) 1 1,
    -- 1547: rdm_eb_des_ov += einsum("w,ia->wia", x12, t1)
    .add 32 (.ein [(41, [0]), (4, [1, 2])] [0, 1, 2]) 1 1,
    -- 1548: del x12
    .del 41,
    -- 1549: x13 = np.zeros((nvir, nvir), dtype=types[float])
    .zeros 43 [1, 1],
    -- 1550: x13 += einsum("wai,wib->ab", lu11, u11)
    .add 43 (.ein [(5, [0, 1, 2]), (6, [0, 2, 3])] [1, 3]) 1 1,
    -- 1551: x15 = np.zeros((nvir, nvir), dtype=types[float])
    .zeros 44 [1, 1],
    -- 1552: x15 += einsum("ab->ab", x13) * 2
    .add 44 (.ein [(43, [0, 1])] [0, 1]) 2 1,
    -- 1553: x22 = np.zeros((nvir, nvir), dtype=types[float])
    .zeros 45 [1, 1],
    -- 1554: x22 += einsum("ab->ab", x13)
    .add 45 (.ein [(43, [0, 1])] [0, 1]) 1 1,
    -- 1555: del x13
    .del 43,
    -- 1556: x14 = np.zeros((nvir, nvir), dtype=types[float])
    .zeros 46 [1, 1],
    -- 1557: x14 -= einsum("abij,ijca->bc", l2, t2)
    .add 46 (.ein [(9, [0, 1, 2, 3]), (10, [2, 3, 4, 0])] [1, 4]) (-1) 1,
    -- 1558: x15 += einsum("ab->ab", x14)
    .add 44 (.ein [(46, [0, 1])] [0, 1]) 1 1,
    -- 1559: rdm_eb_des_ov += einsum("ab,wia->wib", x15, u11) * -0.5
    .add 32 (.ein [(44, [0, 1]), (6, [2, 3, 0])] [2, 3, 1]) (-1) 2,
    -- 1560: del x15
    .del 44,
    -- 1561: x22 += einsum("ab->ab", x14) * 0.5
    .add 45 (.ein [(46, [0, 1])] [0, 1]) 1 2,
    -- 1562: del x14
    .del 46,
    -- 1563: x18 = np.zeros((nbos, nbos), dtype=types[float])
    .zeros 47 [2, 2],
    -- 1564: x18 += einsum("wx,yx->wy", ls2, s2)
    .add 47 (.ein [(13, [0, 1]), (8, [2, 1])] [0, 2]) 1 1,
    -- 1565: x18 += einsum("wai,xia->wx", lu11, u11)
    .add 47 (.ein [(5, [0, 1, 2]), (6, [3, 2, 1])] [0, 3]) 1 1,
    -- 1566: rdm_eb_des_ov += einsum("wx,wia->xia", x18, u11)
    .add 32 (.ein [(47, [0, 1]), (6, [0, 2, 3])] [1, 2, 3]) 1 1,
    -- 1567: del x18
    .del 47,
    -- 1568: x19 = np.zeros((nocc, nocc, nocc, nvir), dtype=types[float])
    .zeros 48 [0, 0, 0, 1],
    -- 1569: x19 += einsum("ia,bajk->jkib", t1, l2)
    .add 48 (.ein [(4, [0, 1]), (9, [2, 1, 3, 4])] [3, 4, 0, 2]) 1 1,
    -- 1570: x21 += einsum("ijab,ijkb->ka", t2, x19) * -0.5000000000000003
    .add 21 (.ein [(10, [0, 1, 2, 3]), (48, [0, 1, 4, 3])] [4, 2]) (-1) 2,
    -- 1571: del x19
    .del 48,
    -- 1572: x21 += einsum("ia->ia", t1) * -1
    .add 21 (.ein [(4, [0, 1])] [0, 1]) (-1) 1,
    -- 1573: x21 += einsum("w,wia->ia", ls1, u11) * -1
    .add 21 (.ein [(12, [0]), (6, [0, 1, 2])] [1, 2]) (-1) 1,
    -- 1574: x21 += einsum("ai,jiba->jb", l1, t2) * -1
    .add 21 (.ein [(7, [0, 1]), (10, [2, 1, 3, 0])] [2, 3]) (-1) 1,
    -- 1575: rdm_eb_des_ov += einsum("w,ia->wia", s1, x21) * -1
    .add 32 (.ein [(11, [0]), (21, [1, 2])] [0, 1, 2]) (-1) 1,
    -- 1576: del x21
    .del 21,
    -- 1577: x22 += einsum("ai,ib->ab", l1, t1)
    .add 45 (.ein [(7, [0, 1]), (4, [1, 2])] [0, 2]) 1 1,
    -- 1578: rdm_eb_des_vv += einsum("w,ab->wab", s1, x22)
    .add 33 (.ein [(11, [0]), (45, [1, 2])] [0, 1, 2]) 1 1,
    -- 1579: del x22
    .del 45,
    -- 1580: rdm_eb_cre_oo += einsum("w,ij->wji", ls1, delta_oo)
    .add 22 (.ein [(12, [0]), (18, [1, 2])] [0, 2, 1]) 1 1,
    -- 1581: rdm_eb_cre_ov += einsum("wx,xia->wia", ls2, u11)
    .add 23 (.ein [(13, [0, 1]), (6, [1, 2, 3])] [0, 2, 3]) 1 1,
    -- 1582: rdm_eb_cre_ov += einsum("wai,jiba->wjb", lu11, t2)
    .add 23 (.ein [(5, [0, 1, 2]), (10, [3, 2, 4, 1])] [0, 3, 4]) 1 1,
    -- 1583: rdm_eb_cre_ov += einsum("w,ia->wia", ls1, t1)
    .add 23 (.ein [(12, [0]), (4, [1, 2])] [0, 1, 2]) 1 1,
    -- 1584: rdm_eb_cre_vo = np.zeros((nbos, nvir, nocc), dtype=types[float])
    .zeros 49 [2, 1, 0],
    -- 1585: rdm_eb_cre_vo += einsum("wai->wai", lu11)
    .add 49 (.ein [(5, [0, 1, 2])] [0, 1, 2]) 1 1,
    -- 1586: rdm_eb_cre_vv = np.zeros((nbos, nvir, nvir), dtype=types[float])
    .zeros 50 [2, 1, 1],
    -- 1587: rdm_eb_cre_vv += einsum("ia,wbi->wba", t1, lu11)
    .add 50 (.ein [(4, [0, 1]), (5, [2, 3, 0])] [2, 3, 1]) 1 1,
    -- 1588: rdm_eb_des_ov += einsum("wia->wia", u11)
    .add 32 (.ein [(6, [0, 1, 2])] [0, 1, 2]) 1 1,
    -- 1589: rdm_eb_des_vo += einsum("w,ai->wai", s1, l1)
    .add 29 (.ein [(11, [0]), (7, [1, 2])] [0, 1, 2]) 1 1,
    -- 1590: rdm_eb_des_vv += einsum("ai,wib->wab", l1, u11)
    .add 33 (.ein [(7, [0, 1]), (6, [2, 1, 3])] [2, 0, 3]) 1 1
  ]
  ret := [(chars! "rdm_eb.0.oo", 22), (chars! "rdm_eb.0.ov", 23), (chars! "rdm_eb.0.vo", 49), (chars! "rdm_eb.0.vv", 50), (chars! "rdm_eb.1.oo", 26), (chars! "rdm_eb.1.ov", 32), (chars! "rdm_eb.1.vo", 29), (chars! "rdm_eb.1.vv", 33)]

end Ebcc.Gen.GCCSD_SD_1_1
