import Verif.Model.GenCode
/-!
Functions of `ebcc/codegen/GCCSD_SD_1_2.py`, written by `tools/gencode.py`.  Comments give the
number and the text of the line of each statement.
-/

set_option maxRecDepth 100000

namespace Ebcc.Gen.GCCSD_SD_1_2

/-- codegen/GCCSD_SD_1_2.py:7-23 `energy`. -/
def energy : GenFun where
  args := [chars! "t2", chars! "t1", chars! "v.oovv", chars! "u11", chars! "s1", chars! "g.bov", chars! "f.ov", chars! "G"]
  body := [
    -- 9: x0 = np.zeros((nocc, nocc, nvir, nvir), dtype=types[float])
    .zeros 8 [0, 0, 1, 1],
    -- 10: x0 += einsum("ijab->jiba", t2)
    .add 8 (.ein [(0, [0, 1, 2, 3])] [1, 0, 3, 2]) 1 1,
    -- 11: x0 += einsum("ia,jb->ijab", t1, t1) * 2
    .add 8 (.ein [(1, [0, 1]), (1, [2, 3])] [0, 2, 1, 3]) 2 1,
    -- 12: e_cc = 0
    .zeros 9 [],
    -- 13: e_cc += einsum("ijab,ijab->", v.oovv, x0) * 0.25
    .add 9 (.ein [(2, [0, 1, 2, 3]), (8, [0, 1, 2, 3])] []) 1 4,
    -- 14: del x0
    .del 8,
    -- 15: x1 = np.zeros((nbos, nocc, nvir), dtype=types[float])
    .zeros 10 [2, 0, 1],
    -- 16: x1 += einsum("wia->wia", u11)
    .add 10 (.ein [(3, [0, 1, 2])] [0, 1, 2]) 1 1,
    -- 17: x1 += einsum("w,ia->wia", s1, t1)
    .add 10 (.ein [(4, [0]), (1, [1, 2])] [0, 1, 2]) 1 1,
    -- 18: e_cc += einsum("wia,wia->", g.bov, x1)
    .add 9 (.ein [(5, [0, 1, 2]), (10, [0, 1, 2])] []) 1 1,
    -- 19: del x1
    .del 10,
    -- 20: e_cc += einsum("ia,ia->", f.ov, t1)
    .add 9 (.ein [(6, [0, 1]), (1, [0, 1])] []) 1 1,
    -- 21: e_cc += einsum("w,w->", G, s1)
    .add 9 (.ein [(7, [0]), (4, [0])] []) 1 1
  ]
  ret := [(chars! "e_cc", 9)]

/-- codegen/GCCSD_SD_1_2.py:25-523 `update_amps`. -/
def update_amps : GenFun where
  args := [chars! "g.boo", chars! "g.bvo", chars! "g.bov", chars! "g.bvv", chars! "t1", chars! "v.oovv", chars! "t2", chars! "v.ooov", chars! "s1", chars! "f.ov", chars! "u11", chars! "u12", chars! "f.oo", chars! "v.ovvv", chars! "f.vv", chars! "G", chars! "s2", chars! "v.vvvv", chars! "v.vvov", chars! "v.ovov", chars! "v.oooo", chars! "v.ovoo", chars! "w", chars! "f.vo", chars! "v.vvoo"]
  body := [
    -- 27: gc = Namespace(
    .set 25 (.tr 0 [0, 2, 1]) 1 1,
    .set 26 (.tr 1 [0, 2, 1]) 1 1,
    .set 27 (.tr 2 [0, 2, 1]) 1 1,
    .set 28 (.tr 3 [0, 2, 1]) 1 1,
    -- 35: x0 = np.zeros((nocc, nocc, nocc, nvir), dtype=types[float])
    .zeros 29 [0, 0, 0, 1],
    -- 36: x0 += einsum("ia,jkba->ijkb", t1, v.oovv)
    .add 29 (.ein [(4, [0, 1]), (5, [2, 3, 4, 1])] [0, 2, 3, 4]) 1 1,
    -- 37: x1 = np.zeros((nocc, nocc, nocc, nvir), dtype=types[float])
    .zeros 30 [0, 0, 0, 1],
    -- 38: x1 += einsum("ijka->ikja", x0) * -1
    .add 30 (.ein [(29, [0, 1, 2, 3])] [0, 2, 1, 3]) (-1) 1,
    -- 39: x40 = np.zeros((nocc, nocc, nocc, nvir), dtype=types[float])
    .zeros 31 [0, 0, 0, 1],
    -- 40: x40 += einsum("ijab,kjlb->kila", t2, x0)
    .add 31 (.ein [(6, [0, 1, 2, 3]), (29, [4, 1, 5, 3])] [4, 0, 5, 2]) 1 1,
    -- 41: x41 = np.zeros((nocc, nocc, nocc, nvir), dtype=types[float])
    .zeros 32 [0, 0, 0, 1],
    -- 42: x41 -= einsum("ijka->ikja", x40)
    .add 32 (.ein [(31, [0, 1, 2, 3])] [0, 2, 1, 3]) (-1) 1,
    -- 43: del x40
    .del 31,
    -- 44: x65 = np.zeros((nocc, nocc, nocc, nocc), dtype=types[float])
    .zeros 33 [0, 0, 0, 0],
    -- 45: x65 += einsum("ia,jkla->jilk", t1, x0)
    .add 33 (.ein [(4, [0, 1]), (29, [2, 3, 4, 1])] [2, 0, 4, 3]) 1 1,
    -- 46: x66 = np.zeros((nocc, nocc, nocc, nocc), dtype=types[float])
    .zeros 34 [0, 0, 0, 0],
    -- 47: x66 += einsum("ijkl->klji", x65) * -2.0000000000000013
    .add 34 (.ein [(33, [0, 1, 2, 3])] [2, 3, 1, 0]) (-2) 1,
    -- 48: x67 = np.zeros((nocc, nocc, nocc, nocc), dtype=types[float])
    .zeros 35 [0, 0, 0, 0],
    -- 49: x67 += einsum("ijkl->klji", x65) * -1
    .add 35 (.ein [(33, [0, 1, 2, 3])] [2, 3, 1, 0]) (-1) 1,
    -- 50: del x65
    .del 33,
    -- 51: x110 = np.zeros((nocc, nocc, nocc, nvir), dtype=types[float])
    .zeros 36 [0, 0, 0, 1],
    -- 52: x110 += einsum("ijka->kjia", x0)
    .add 36 (.ein [(29, [0, 1, 2, 3])] [2, 1, 0, 3]) 1 1,
    -- 53: del x0
    .del 29,
    -- 54: x1 += einsum("ijka->kjia", v.ooov)
    .add 30 (.ein [(7, [0, 1, 2, 3])] [2, 1, 0, 3]) 1 1,
    -- 55: t1new = np.zeros((nocc, nvir), dtype=types[float])
    .zeros 37 [0, 1],
    -- 56: t1new += einsum("ijab,kija->kb", t2, x1) * -0.5
    .add 37 (.ein [(6, [0, 1, 2, 3]), (30, [4, 0, 1, 2])] [4, 3]) (-1) 2,
    -- 57: del x1
    .del 30,
    -- 58: x2 = np.zeros((nocc, nvir), dtype=types[float])
    .zeros 38 [0, 1],
    -- 59: x2 += einsum("w,wia->ia", s1, g.bov)
    .add 38 (.ein [(8, [0]), (2, [0, 1, 2])] [1, 2]) 1 1,
    -- 60: x4 = np.zeros((nocc, nvir), dtype=types[float])
    .zeros 39 [0, 1],
    -- 61: x4 += einsum("ia->ia", x2)
    .add 39 (.ein [(38, [0, 1])] [0, 1]) 1 1,
    -- 62: x11 = np.zeros((nocc, nvir), dtype=types[float])
    .zeros 40 [0, 1],
    -- 63: x11 += einsum("ia->ia", x2)
    .add 40 (.ein [(38, [0, 1])] [0, 1]) 1 1,
    -- 64: x81 = np.zeros((nocc, nvir), dtype=types[float])
    .zeros 41 [0, 1],
    -- 65: x81 += einsum("ia->ia", x2)
    .add 41 (.ein [(38, [0, 1])] [0, 1]) 1 1,
    -- 66: del x2
    .del 38,
    -- 67: x3 = np.zeros((nocc, nvir), dtype=types[float])
    .zeros 42 [0, 1],
    -- 68: x3 += einsum("ia,jiba->jb", t1, v.oovv)
    .add 42 (.ein [(4, [0, 1]), (5, [2, 0, 3, 1])] [2, 3]) 1 1,
    -- 69: x4 += einsum("ia->ia", x3)
    .add 39 (.ein [(42, [0, 1])] [0, 1]) 1 1,
    -- 70: x11 += einsum("ia->ia", x3)
    .add 40 (.ein [(42, [0, 1])] [0, 1]) 1 1,
    -- 71: x77 = np.zeros((nvir, nvir), dtype=types[float])
    .zeros 43 [1, 1],
    -- 72: x77 += einsum("ia,ib->ab", t1, x3) * 2
    .add 43 (.ein [(4, [0, 1]), (42, [0, 2])] [1, 2]) 2 1,
    -- 73: del x3
    .del 42,
    -- 74: x4 += einsum("ia->ia", f.ov)
    .add 39 (.ein [(9, [0, 1])] [0, 1]) 1 1,
    -- 75: x24 = np.zeros((nocc, nocc), dtype=types[float])
    .zeros 44 [0, 0],
    -- 76: x24 += einsum("ia,ja->ij", t1, x4)
    .add 44 (.ein [(4, [0, 1]), (39, [2, 1])] [0, 2]) 1 1,
    -- 77: x25 = np.zeros((nocc, nocc), dtype=types[float])
    .zeros 45 [0, 0],
    -- 78: x25 += einsum("ij->ij", x24)
    .add 45 (.ein [(44, [0, 1])] [0, 1]) 1 1,
    -- 79: del x24
    .del 44,
    -- 80: x48 = np.zeros((nocc, nocc, nocc, nvir), dtype=types[float])
    .zeros 46 [0, 0, 0, 1],
    -- 81: x48 += einsum("ia,jkab->jkib", x4, t2)
    .add 46 (.ein [(39, [0, 1]), (6, [2, 3, 1, 4])] [2, 3, 0, 4]) 1 1,
    -- 82: x49 = np.zeros((nocc, nocc, nocc, nvir), dtype=types[float])
    .zeros 47 [0, 0, 0, 1],
    -- 83: x49 += einsum("ijka->kjia", x48)
    .add 47 (.ein [(46, [0, 1, 2, 3])] [2, 1, 0, 3]) 1 1,
    -- 84: del x48
    .del 46,
    -- 85: x91 = np.zeros((nbos, nocc, nocc), dtype=types[float])
    .zeros 48 [2, 0, 0],
    -- 86: x91 += einsum("ia,wja->wji", x4, u11)
    .add 48 (.ein [(39, [0, 1]), (10, [2, 3, 1])] [2, 3, 0]) 1 1,
    -- 87: x94 = np.zeros((nbos, nocc, nocc), dtype=types[float])
    .zeros 49 [2, 0, 0],
    -- 88: x94 += einsum("wij->wji", x91)
    .add 49 (.ein [(48, [0, 1, 2])] [0, 2, 1]) 1 1,
    -- 89: del x91
    .del 48,
    -- 90: x111 = np.zeros((nbos, nbos, nocc, nocc), dtype=types[float])
    .zeros 50 [2, 2, 0, 0],
    -- 91: x111 += einsum("ia,wxja->xwij", x4, u12)
    .add 50 (.ein [(39, [0, 1]), (11, [2, 3, 4, 1])] [3, 2, 0, 4]) 1 1,
    -- 92: t1new += einsum("ia,ijab->jb", x4, t2)
    .add 37 (.ein [(39, [0, 1]), (6, [0, 2, 1, 3])] [2, 3]) 1 1,
    -- 93: s1new = np.zeros((nbos), dtype=types[float])
    .zeros 51 [2],
    -- 94: s1new += einsum("ia,wia->w", x4, u11)
    .add 51 (.ein [(39, [0, 1]), (10, [2, 0, 1])] [2]) 1 1,
    -- 95: s2new = np.zeros((nbos, nbos), dtype=types[float])
    .zeros 52 [2, 2],
    -- 96: s2new += einsum("ia,wxia->xw", x4, u12)
    .add 52 (.ein [(39, [0, 1]), (11, [2, 3, 0, 1])] [3, 2]) 1 1,
    -- 97: del x4
    .del 39,
    -- 98: x5 = np.zeros((nbos, nocc, nocc), dtype=types[float])
    .zeros 53 [2, 0, 0],
    -- 99: x5 += einsum("ia,wja->wji", t1, g.bov)
    .add 53 (.ein [(4, [0, 1]), (2, [2, 3, 1])] [2, 3, 0]) 1 1,
    -- 100: x6 = np.zeros((nbos, nocc, nocc), dtype=types[float])
    .zeros 54 [2, 0, 0],
    -- 101: x6 += einsum("wij->wij", x5)
    .add 54 (.ein [(53, [0, 1, 2])] [0, 1, 2]) 1 1,
    -- 102: del x5
    .del 53,
    -- 103: x6 += einsum("wij->wij", g.boo)
    .add 54 (.ein [(0, [0, 1, 2])] [0, 1, 2]) 1 1,
    -- 104: x35 = np.zeros((nbos, nocc, nvir), dtype=types[float])
    .zeros 55 [2, 0, 1],
    -- 105: x35 += einsum("ia,wij->wja", t1, x6)
    .add 55 (.ein [(4, [0, 1]), (54, [2, 0, 3])] [2, 3, 1]) 1 1,
    -- 106: x36 = np.zeros((nbos, nocc, nvir), dtype=types[float])
    .zeros 56 [2, 0, 1],
    -- 107: x36 -= einsum("wia->wia", x35)
    .add 56 (.ein [(55, [0, 1, 2])] [0, 1, 2]) (-1) 1,
    -- 108: del x35
    .del 55,
    -- 109: t1new -= einsum("wia,wij->ja", u11, x6)
    .add 37 (.ein [(10, [0, 1, 2]), (54, [0, 1, 3])] [3, 2]) (-1) 1,
    -- 110: u11new = np.zeros((nbos, nocc, nvir), dtype=types[float])
    .zeros 57 [2, 0, 1],
    -- 111: u11new -= einsum("wij,wxia->xja", x6, u12)
    .add 57 (.ein [(54, [0, 1, 2]), (11, [0, 3, 1, 4])] [3, 2, 4]) (-1) 1,
    -- 112: del x6
    .del 54,
    -- 113: x7 = np.zeros((nocc, nocc), dtype=types[float])
    .zeros 58 [0, 0],
    -- 114: x7 += einsum("w,wij->ij", s1, g.boo)
    .add 58 (.ein [(8, [0]), (0, [0, 1, 2])] [1, 2]) 1 1,
    -- 115: x13 = np.zeros((nocc, nocc), dtype=types[float])
    .zeros 59 [0, 0],
    -- 116: x13 += einsum("ij->ij", x7)
    .add 59 (.ein [(58, [0, 1])] [0, 1]) 1 1,
    -- 117: x25 += einsum("ij->ji", x7)
    .add 45 (.ein [(58, [0, 1])] [1, 0]) 1 1,
    -- 118: x83 = np.zeros((nocc, nocc), dtype=types[float])
    .zeros 60 [0, 0],
    -- 119: x83 += einsum("ij->ij", x7) * 2
    .add 60 (.ein [(58, [0, 1])] [0, 1]) 2 1,
    -- 120: del x7
    .del 58,
    -- 121: x8 = np.zeros((nocc, nocc), dtype=types[float])
    .zeros 61 [0, 0],
    -- 122: x8 += einsum("wia,wja->ij", g.bov, u11)
    .add 61 (.ein [(2, [0, 1, 2]), (10, [0, 3, 2])] [1, 3]) 1 1,
    -- 123: x13 += einsum("ij->ij", x8)
    .add 59 (.ein [(61, [0, 1])] [0, 1]) 1 1,
    -- 124: x27 = np.zeros((nocc, nocc), dtype=types[float])
    .zeros 62 [0, 0],
    -- 125: x27 += einsum("ij->ij", x8)
    .add 62 (.ein [(61, [0, 1])] [0, 1]) 1 1,
    -- 126: x83 += einsum("ij->ij", x8) * 2
    .add 60 (.ein [(61, [0, 1])] [0, 1]) 2 1,
    -- 127: del x8
    .del 61,
    -- 128: x9 = np.zeros((nocc, nocc), dtype=types[float])
    .zeros 63 [0, 0],
    -- 129: x9 -= einsum("ia,ijka->jk", t1, v.ooov)
    .add 63 (.ein [(4, [0, 1]), (7, [0, 2, 3, 1])] [2, 3]) (-1) 1,
    -- 130: x13 += einsum("ij->ij", x9)
    .add 59 (.ein [(63, [0, 1])] [0, 1]) 1 1,
    -- 131: x27 += einsum("ij->ij", x9)
    .add 62 (.ein [(63, [0, 1])] [0, 1]) 1 1,
    -- 132: x28 = np.zeros((nocc, nocc, nvir, nvir), dtype=types[float])
    .zeros 64 [0, 0, 1, 1],
    -- 133: x28 += einsum("ij,ikab->kjab", x27, t2)
    .add 64 (.ein [(62, [0, 1]), (6, [0, 2, 3, 4])] [2, 1, 3, 4]) 1 1,
    -- 134: del x27
    .del 62,
    -- 135: x29 = np.zeros((nocc, nocc, nvir, nvir), dtype=types[float])
    .zeros 65 [0, 0, 1, 1],
    -- 136: x29 -= einsum("ijab->ijba", x28)
    .add 65 (.ein [(64, [0, 1, 2, 3])] [0, 1, 3, 2]) (-1) 1,
    -- 137: del x28
    .del 64,
    -- 138: x83 += einsum("ij->ij", x9) * 2
    .add 60 (.ein [(63, [0, 1])] [0, 1]) 2 1,
    -- 139: del x9
    .del 63,
    -- 140: x10 = np.zeros((nocc, nocc), dtype=types[float])
    .zeros 66 [0, 0],
    -- 141: x10 -= einsum("ijab,jkab->ik", t2, v.oovv)
    .add 66 (.ein [(6, [0, 1, 2, 3]), (5, [1, 4, 2, 3])] [0, 4]) (-1) 1,
    -- 142: x13 += einsum("ij->ji", x10) * 0.5
    .add 59 (.ein [(66, [0, 1])] [1, 0]) 1 2,
    -- 143: x61 = np.zeros((nocc, nocc, nvir, nvir), dtype=types[float])
    .zeros 67 [0, 0, 1, 1],
    -- 144: x61 += einsum("ij,kjab->kiab", x10, t2)
    .add 67 (.ein [(66, [0, 1]), (6, [2, 1, 3, 4])] [2, 0, 3, 4]) 1 1,
    -- 145: x62 = np.zeros((nocc, nocc, nvir, nvir), dtype=types[float])
    .zeros 68 [0, 0, 1, 1],
    -- 146: x62 += einsum("ijab->ijba", x61) * -0.5
    .add 68 (.ein [(67, [0, 1, 2, 3])] [0, 1, 3, 2]) (-1) 2,
    -- 147: del x61
    .del 67,
    -- 148: x83 += einsum("ij->ji", x10)
    .add 60 (.ein [(66, [0, 1])] [1, 0]) 1 1,
    -- 149: del x10
    .del 66,
    -- 150: x11 += einsum("ia->ia", f.ov)
    .add 40 (.ein [(9, [0, 1])] [0, 1]) 1 1,
    -- 151: x12 = np.zeros((nocc, nocc), dtype=types[float])
    .zeros 69 [0, 0],
    -- 152: x12 += einsum("ia,ja->ij", t1, x11)
    .add 69 (.ein [(4, [0, 1]), (40, [2, 1])] [0, 2]) 1 1,
    -- 153: x13 += einsum("ij->ji", x12)
    .add 59 (.ein [(69, [0, 1])] [1, 0]) 1 1,
    -- 154: del x12
    .del 69,
    -- 155: x83 += einsum("ia,ja->ji", t1, x11) * 2
    .add 60 (.ein [(4, [0, 1]), (40, [2, 1])] [2, 0]) 2 1,
    -- 156: del x11
    .del 40,
    -- 157: x13 += einsum("ij->ij", f.oo)
    .add 59 (.ein [(12, [0, 1])] [0, 1]) 1 1,
    -- 158: t1new += einsum("ia,ij->ja", t1, x13) * -1
    .add 37 (.ein [(4, [0, 1]), (59, [0, 2])] [2, 1]) (-1) 1,
    -- 159: u12new = np.zeros((nbos, nbos, nocc, nvir), dtype=types[float])
    .zeros 70 [2, 2, 0, 1],
    -- 160: u12new += einsum("ij,wxia->xwja", x13, u12) * -1
    .add 70 (.ein [(59, [0, 1]), (11, [2, 3, 0, 4])] [3, 2, 1, 4]) (-1) 1,
    -- 161: del x13
    .del 59,
    -- 162: x14 = np.zeros((nvir, nvir), dtype=types[float])
    .zeros 71 [1, 1],
    -- 163: x14 += einsum("w,wab->ab", s1, g.bvv)
    .add 71 (.ein [(8, [0]), (3, [0, 1, 2])] [1, 2]) 1 1,
    -- 164: x16 = np.zeros((nvir, nvir), dtype=types[float])
    .zeros 72 [1, 1],
    -- 165: x16 += einsum("ab->ab", x14)
    .add 72 (.ein [(71, [0, 1])] [0, 1]) 1 1,
    -- 166: x44 = np.zeros((nocc, nocc, nvir, nvir), dtype=types[float])
    .zeros 73 [0, 0, 1, 1],
    -- 167: x44 += einsum("ab,ijcb->ijac", x14, t2)
    .add 73 (.ein [(71, [0, 1]), (6, [2, 3, 4, 1])] [2, 3, 0, 4]) 1 1,
    -- 168: x54 = np.zeros((nocc, nocc, nvir, nvir), dtype=types[float])
    .zeros 74 [0, 0, 1, 1],
    -- 169: x54 += einsum("ijab->ijab", x44)
    .add 74 (.ein [(73, [0, 1, 2, 3])] [0, 1, 2, 3]) 1 1,
    -- 170: del x44
    .del 73,
    -- 171: x77 += einsum("ab->ab", x14) * -2
    .add 43 (.ein [(71, [0, 1])] [0, 1]) (-2) 1,
    -- 172: x109 = np.zeros((nvir, nvir), dtype=types[float])
    .zeros 75 [1, 1],
    -- 173: x109 += einsum("ab->ab", x14) * -2
    .add 75 (.ein [(71, [0, 1])] [0, 1]) (-2) 1,
    -- 174: del x14
    .del 71,
    -- 175: x15 = np.zeros((nvir, nvir), dtype=types[float])
    .zeros 76 [1, 1],
    -- 176: x15 -= einsum("ia,ibac->bc", t1, v.ovvv)
    .add 76 (.ein [(4, [0, 1]), (13, [0, 2, 1, 3])] [2, 3]) (-1) 1,
    -- 177: x16 -= einsum("ab->ab", x15)
    .add 72 (.ein [(76, [0, 1])] [0, 1]) (-1) 1,
    -- 178: x52 = np.zeros((nvir, nvir), dtype=types[float])
    .zeros 77 [1, 1],
    -- 179: x52 += einsum("ab->ab", x15)
    .add 77 (.ein [(76, [0, 1])] [0, 1]) 1 1,
    -- 180: x77 += einsum("ab->ab", x15) * 2
    .add 43 (.ein [(76, [0, 1])] [0, 1]) 2 1,
    -- 181: x109 += einsum("ab->ab", x15) * 2
    .add 75 (.ein [(76, [0, 1])] [0, 1]) 2 1,
    -- 182: del x15
    .del 76,
    -- 183: x16 += einsum("ab->ab", f.vv)
    .add 72 (.ein [(14, [0, 1])] [0, 1]) 1 1,
    -- 184: t1new += einsum("ia,ba->ib", t1, x16)
    .add 37 (.ein [(4, [0, 1]), (72, [2, 1])] [0, 2]) 1 1,
    -- 185: del x16
    .del 72,
    -- 186: x17 = np.zeros((nbos), dtype=types[float])
    .zeros 78 [2],
    -- 187: x17 += einsum("ia,wia->w", t1, g.bov)
    .add 78 (.ein [(4, [0, 1]), (2, [2, 0, 1])] [2]) 1 1,
    -- 188: x18 = np.zeros((nbos), dtype=types[float])
    .zeros 79 [2],
    -- 189: x18 += einsum("w->w", x17)
    .add 79 (.ein [(78, [0])] [0]) 1 1,
    -- 190: del x17
    .del 78,
    -- 191: x18 += einsum("w->w", G)
    .add 79 (.ein [(15, [0])] [0]) 1 1,
    -- 192: t1new += einsum("w,wia->ia", x18, u11)
    .add 37 (.ein [(79, [0]), (10, [0, 1, 2])] [1, 2]) 1 1,
    -- 193: s1new += einsum("w,wx->x", x18, s2)
    .add 51 (.ein [(79, [0]), (16, [0, 1])] [1]) 1 1,
    -- 194: u11new += einsum("w,wxia->xia", x18, u12)
    .add 57 (.ein [(79, [0]), (11, [0, 1, 2, 3])] [1, 2, 3]) 1 1,
    -- 195: del x18
    .del 79,
    -- 196: x19 = np.zeros((nocc, nvir, nvir, nvir), dtype=types[float])
    .zeros 80 [0, 1, 1, 1],
    -- 197: x19 += einsum("ia,bcda->ibcd", t1, v.vvvv)
    .add 80 (.ein [(4, [0, 1]), (17, [2, 3, 4, 1])] [0, 2, 3, 4]) 1 1,
    -- 198: t2new = np.zeros((nocc, nocc, nvir, nvir), dtype=types[float])
    .zeros 81 [0, 0, 1, 1],
    -- 199: t2new -= einsum("ia,jbca->ijcb", t1, x19)
    .add 81 (.ein [(4, [0, 1]), (80, [2, 3, 4, 1])] [0, 2, 4, 3]) (-1) 1,
    -- 200: del x19
    .del 80,
    -- 201: x20 = np.zeros((nocc, nocc, nvir, nvir), dtype=types[float])
    .zeros 82 [0, 0, 1, 1],
    -- 202: x20 += einsum("ia,bcja->ijbc", t1, v.vvov)
    .add 82 (.ein [(4, [0, 1]), (18, [2, 3, 4, 1])] [0, 4, 2, 3]) 1 1,
    -- 203: x29 += einsum("ijab->ijba", x20)
    .add 65 (.ein [(82, [0, 1, 2, 3])] [0, 1, 3, 2]) 1 1,
    -- 204: del x20
    .del 82,
    -- 205: x21 = np.zeros((nocc, nocc, nocc, nocc), dtype=types[float])
    .zeros 83 [0, 0, 0, 0],
    -- 206: x21 += einsum("ia,jkla->ijkl", t1, v.ooov)
    .add 83 (.ein [(4, [0, 1]), (7, [2, 3, 4, 1])] [0, 2, 3, 4]) 1 1,
    -- 207: x22 = np.zeros((nocc, nocc, nocc, nvir), dtype=types[float])
    .zeros 84 [0, 0, 0, 1],
    -- 208: x22 += einsum("ia,jkil->jkla", t1, x21)
    .add 84 (.ein [(4, [0, 1]), (83, [2, 3, 0, 4])] [2, 3, 4, 1]) 1 1,
    -- 209: x23 = np.zeros((nocc, nocc, nvir, nvir), dtype=types[float])
    .zeros 85 [0, 0, 1, 1],
    -- 210: x23 -= einsum("ia,jikb->jkba", t1, x22)
    .add 85 (.ein [(4, [0, 1]), (84, [2, 0, 3, 4])] [2, 3, 4, 1]) (-1) 1,
    -- 211: del x22
    .del 84,
    -- 212: x29 += einsum("ijab->ijba", x23)
    .add 65 (.ein [(85, [0, 1, 2, 3])] [0, 1, 3, 2]) 1 1,
    -- 213: del x23
    .del 85,
    -- 214: x60 = np.zeros((nocc, nocc, nvir, nvir), dtype=types[float])
    .zeros 86 [0, 0, 1, 1],
    -- 215: x60 += einsum("ijab,kijl->klab", t2, x21)
    .add 86 (.ein [(6, [0, 1, 2, 3]), (83, [4, 0, 1, 5])] [4, 5, 2, 3]) 1 1,
    -- 216: del x21
    .del 83,
    -- 217: x62 += einsum("ijab->ijba", x60) * -0.5
    .add 68 (.ein [(86, [0, 1, 2, 3])] [0, 1, 3, 2]) (-1) 2,
    -- 218: del x60
    .del 86,
    -- 219: t2new += einsum("ijab->ijab", x62) * -1
    .add 81 (.ein [(68, [0, 1, 2, 3])] [0, 1, 2, 3]) (-1) 1,
    -- 220: t2new += einsum("ijab->jiab", x62)
    .add 81 (.ein [(68, [0, 1, 2, 3])] [1, 0, 2, 3]) 1 1,
    -- 221: del x62
    .del 68,
    -- 222: x25 += einsum("ij->ji", f.oo)
    .add 45 (.ein [(12, [0, 1])] [1, 0]) 1 1,
    -- 223: x26 = np.zeros((nocc, nocc, nvir, nvir), dtype=types[float])
    .zeros 87 [0, 0, 1, 1],
    -- 224: x26 += einsum("ij,jkab->kiab", x25, t2)
    .add 87 (.ein [(45, [0, 1]), (6, [1, 2, 3, 4])] [2, 0, 3, 4]) 1 1,
    -- 225: del x25
    .del 45,
    -- 226: x29 += einsum("ijab->jiba", x26)
    .add 65 (.ein [(87, [0, 1, 2, 3])] [1, 0, 3, 2]) 1 1,
    -- 227: del x26
    .del 87,
    -- 228: t2new += einsum("ijab->ijab", x29)
    .add 81 (.ein [(65, [0, 1, 2, 3])] [0, 1, 2, 3]) 1 1,
    -- 229: t2new -= einsum("ijab->jiab", x29)
    .add 81 (.ein [(65, [0, 1, 2, 3])] [1, 0, 2, 3]) (-1) 1,
    -- 230: del x29
    .del 65,
    -- 231: x30 = np.zeros((nocc, nocc, nvir, nvir), dtype=types[float])
    .zeros 88 [0, 0, 1, 1],
    -- 232: x30 += einsum("ijab,jckb->ikac", t2, v.ovov)
    .add 88 (.ein [(6, [0, 1, 2, 3]), (19, [1, 4, 5, 3])] [0, 5, 2, 4]) 1 1,
    -- 233: x43 = np.zeros((nocc, nocc, nvir, nvir), dtype=types[float])
    .zeros 89 [0, 0, 1, 1],
    -- 234: x43 -= einsum("ijab->ijab", x30)
    .add 89 (.ein [(88, [0, 1, 2, 3])] [0, 1, 2, 3]) (-1) 1,
    -- 235: del x30
    .del 88,
    -- 236: x31 = np.zeros((nocc, nocc, nvir, nvir), dtype=types[float])
    .zeros 90 [0, 0, 1, 1],
    -- 237: x31 += einsum("ia,jbca->ijbc", t1, v.ovvv)
    .add 90 (.ein [(4, [0, 1]), (13, [2, 3, 4, 1])] [0, 2, 3, 4]) 1 1,
    -- 238: x32 = np.zeros((nocc, nocc, nvir, nvir), dtype=types[float])
    .zeros 91 [0, 0, 1, 1],
    -- 239: x32 -= einsum("ijab,kjcb->kiac", t2, x31)
    .add 91 (.ein [(6, [0, 1, 2, 3]), (90, [4, 1, 5, 3])] [4, 0, 2, 5]) (-1) 1,
    -- 240: x43 += einsum("ijab->ijab", x32)
    .add 89 (.ein [(91, [0, 1, 2, 3])] [0, 1, 2, 3]) 1 1,
    -- 241: del x32
    .del 91,
    -- 242: x47 = np.zeros((nocc, nocc, nocc, nvir), dtype=types[float])
    .zeros 92 [0, 0, 0, 1],
    -- 243: x47 -= einsum("ia,jkba->jikb", t1, x31)
    .add 92 (.ein [(4, [0, 1]), (90, [2, 3, 4, 1])] [2, 0, 3, 4]) (-1) 1,
    -- 244: x49 += einsum("ijka->kjia", x47)
    .add 47 (.ein [(92, [0, 1, 2, 3])] [2, 1, 0, 3]) 1 1,
    -- 245: del x47
    .del 92,
    -- 246: x50 = np.zeros((nocc, nocc, nvir, nvir), dtype=types[float])
    .zeros 93 [0, 0, 1, 1],
    -- 247: x50 += einsum("ia,ijkb->jkab", t1, x49)
    .add 93 (.ein [(4, [0, 1]), (47, [0, 2, 3, 4])] [2, 3, 1, 4]) 1 1,
    -- 248: del x49
    .del 47,
    -- 249: x54 += einsum("ijab->jiab", x50)
    .add 74 (.ein [(93, [0, 1, 2, 3])] [1, 0, 2, 3]) 1 1,
    -- 250: del x50
    .del 93,
    -- 251: x108 = np.zeros((nocc, nocc, nvir, nvir), dtype=types[float])
    .zeros 94 [0, 0, 1, 1],
    -- 252: x108 -= einsum("ijab->jiab", x31)
    .add 94 (.ein [(90, [0, 1, 2, 3])] [1, 0, 2, 3]) (-1) 1,
    -- 253: del x31
    .del 90,
    -- 254: x33 = np.zeros((nbos, nocc, nvir), dtype=types[float])
    .zeros 95 [2, 0, 1],
    -- 255: x33 += einsum("ia,wba->wib", t1, g.bvv)
    .add 95 (.ein [(4, [0, 1]), (3, [2, 3, 1])] [2, 0, 3]) 1 1,
    -- 256: x36 += einsum("wia->wia", x33)
    .add 56 (.ein [(95, [0, 1, 2])] [0, 1, 2]) 1 1,
    -- 257: del x33
    .del 95,
    -- 258: x34 = np.zeros((nbos, nocc, nvir), dtype=types[float])
    .zeros 96 [2, 0, 1],
    -- 259: x34 += einsum("wia,jiba->wjb", g.bov, t2)
    .add 96 (.ein [(2, [0, 1, 2]), (6, [3, 1, 4, 2])] [0, 3, 4]) 1 1,
    -- 260: x36 += einsum("wia->wia", x34)
    .add 56 (.ein [(96, [0, 1, 2])] [0, 1, 2]) 1 1,
    -- 261: del x34
    .del 96,
    -- 262: x36 += einsum("wai->wia", g.bvo)
    .add 56 (.ein [(1, [0, 1, 2])] [0, 2, 1]) 1 1,
    -- 263: x37 = np.zeros((nocc, nocc, nvir, nvir), dtype=types[float])
    .zeros 97 [0, 0, 1, 1],
    -- 264: x37 += einsum("wia,wjb->ijab", u11, x36)
    .add 97 (.ein [(10, [0, 1, 2]), (56, [0, 3, 4])] [1, 3, 2, 4]) 1 1,
    -- 265: del x36
    .del 56,
    -- 266: x43 += einsum("ijab->jiba", x37)
    .add 89 (.ein [(97, [0, 1, 2, 3])] [1, 0, 3, 2]) 1 1,
    -- 267: del x37
    .del 97,
    -- 268: x38 = np.zeros((nocc, nocc, nocc, nvir), dtype=types[float])
    .zeros 98 [0, 0, 0, 1],
    -- 269: x38 += einsum("ia,jbka->ijkb", t1, v.ovov)
    .add 98 (.ein [(4, [0, 1]), (19, [2, 3, 4, 1])] [0, 2, 4, 3]) 1 1,
    -- 270: x41 += einsum("ijka->ijka", x38)
    .add 32 (.ein [(98, [0, 1, 2, 3])] [0, 1, 2, 3]) 1 1,
    -- 271: del x38
    .del 98,
    -- 272: x39 = np.zeros((nocc, nocc, nocc, nvir), dtype=types[float])
    .zeros 99 [0, 0, 0, 1],
    -- 273: x39 -= einsum("ijab,jklb->ikla", t2, v.ooov)
    .add 99 (.ein [(6, [0, 1, 2, 3]), (7, [1, 4, 5, 3])] [0, 4, 5, 2]) (-1) 1,
    -- 274: x41 += einsum("ijka->ijka", x39)
    .add 32 (.ein [(99, [0, 1, 2, 3])] [0, 1, 2, 3]) 1 1,
    -- 275: del x39
    .del 99,
    -- 276: x42 = np.zeros((nocc, nocc, nvir, nvir), dtype=types[float])
    .zeros 100 [0, 0, 1, 1],
    -- 277: x42 += einsum("ia,jikb->jkab", t1, x41)
    .add 100 (.ein [(4, [0, 1]), (32, [2, 0, 3, 4])] [2, 3, 1, 4]) 1 1,
    -- 278: del x41
    .del 32,
    -- 279: x43 += einsum("ijab->ijab", x42)
    .add 89 (.ein [(100, [0, 1, 2, 3])] [0, 1, 2, 3]) 1 1,
    -- 280: del x42
    .del 100,
    -- 281: t2new += einsum("ijab->ijab", x43)
    .add 81 (.ein [(89, [0, 1, 2, 3])] [0, 1, 2, 3]) 1 1,
    -- 282: t2new -= einsum("ijab->ijba", x43)
    .add 81 (.ein [(89, [0, 1, 2, 3])] [0, 1, 3, 2]) (-1) 1,
    -- 283: t2new -= einsum("ijab->jiab", x43)
    .add 81 (.ein [(89, [0, 1, 2, 3])] [1, 0, 2, 3]) (-1) 1,
    -- 284: t2new += einsum("ijab->jiba", x43)
    .add 81 (.ein [(89, [0, 1, 2, 3])] [1, 0, 3, 2]) 1 1,
    -- 285: del x43
    .del 89,
    -- 286: x45 = np.zeros((nocc, nocc, nvir, nvir), dtype=types[float])
    .zeros 101 [0, 0, 1, 1],
    -- 287: x45 += einsum("ijab,jkbc->ikac", t2, v.oovv)
    .add 101 (.ein [(6, [0, 1, 2, 3]), (5, [1, 4, 3, 5])] [0, 4, 2, 5]) 1 1,
    -- 288: x46 = np.zeros((nocc, nocc, nvir, nvir), dtype=types[float])
    .zeros 102 [0, 0, 1, 1],
    -- 289: x46 += einsum("ijab,kjcb->kica", t2, x45)
    .add 102 (.ein [(6, [0, 1, 2, 3]), (101, [4, 1, 5, 3])] [4, 0, 5, 2]) 1 1,
    -- 290: del x45
    .del 101,
    -- 291: x54 -= einsum("ijab->ijab", x46)
    .add 74 (.ein [(102, [0, 1, 2, 3])] [0, 1, 2, 3]) (-1) 1,
    -- 292: del x46
    .del 102,
    -- 293: x51 = np.zeros((nvir, nvir), dtype=types[float])
    .zeros 103 [1, 1],
    -- 294: x51 += einsum("wia,wib->ab", g.bov, u11)
    .add 103 (.ein [(2, [0, 1, 2]), (10, [0, 1, 3])] [2, 3]) 1 1,
    -- 295: x52 += einsum("ab->ba", x51)
    .add 77 (.ein [(103, [0, 1])] [1, 0]) 1 1,
    -- 296: x53 = np.zeros((nocc, nocc, nvir, nvir), dtype=types[float])
    .zeros 104 [0, 0, 1, 1],
    -- 297: x53 += einsum("ab,ijbc->ijca", x52, t2)
    .add 104 (.ein [(77, [0, 1]), (6, [2, 3, 1, 4])] [2, 3, 4, 0]) 1 1,
    -- 298: del x52
    .del 77,
    -- 299: x54 += einsum("ijab->jiab", x53)
    .add 74 (.ein [(104, [0, 1, 2, 3])] [1, 0, 2, 3]) 1 1,
    -- 300: del x53
    .del 104,
    -- 301: t2new -= einsum("ijab->ijab", x54)
    .add 81 (.ein [(74, [0, 1, 2, 3])] [0, 1, 2, 3]) (-1) 1,
    -- 302: t2new += einsum("ijab->ijba", x54)
    .add 81 (.ein [(74, [0, 1, 2, 3])] [0, 1, 3, 2]) 1 1,
    -- 303: del x54
    .del 74,
    -- 304: x77 += einsum("ab->ba", x51) * 2
    .add 43 (.ein [(103, [0, 1])] [1, 0]) 2 1,
    -- 305: x109 += einsum("ab->ba", x51) * 2
    .add 75 (.ein [(103, [0, 1])] [1, 0]) 2 1,
    -- 306: del x51
    .del 103,
    -- 307: x55 = np.zeros((nocc, nocc, nocc, nvir), dtype=types[float])
    .zeros 105 [0, 0, 0, 1],
    -- 308: x55 += einsum("ijab,kcab->ijkc", t2, v.ovvv)
    .add 105 (.ein [(6, [0, 1, 2, 3]), (13, [4, 5, 2, 3])] [0, 1, 4, 5]) 1 1,
    -- 309: x56 = np.zeros((nocc, nocc, nvir, nvir), dtype=types[float])
    .zeros 106 [0, 0, 1, 1],
    -- 310: x56 += einsum("ia,jkib->jkab", t1, x55)
    .add 106 (.ein [(4, [0, 1]), (105, [2, 3, 0, 4])] [2, 3, 1, 4]) 1 1,
    -- 311: del x55
    .del 105,
    -- 312: x59 = np.zeros((nocc, nocc, nvir, nvir), dtype=types[float])
    .zeros 107 [0, 0, 1, 1],
    -- 313: x59 += einsum("ijab->ijab", x56) * 0.5
    .add 107 (.ein [(106, [0, 1, 2, 3])] [0, 1, 2, 3]) 1 2,
    -- 314: del x56
    .del 106,
    -- 315: x57 = np.zeros((nvir, nvir), dtype=types[float])
    .zeros 108 [1, 1],
    -- 316: x57 -= einsum("ijab,ijbc->ac", t2, v.oovv)
    .add 108 (.ein [(6, [0, 1, 2, 3]), (5, [0, 1, 3, 4])] [2, 4]) (-1) 1,
    -- 317: x58 = np.zeros((nocc, nocc, nvir, nvir), dtype=types[float])
    .zeros 109 [0, 0, 1, 1],
    -- 318: x58 += einsum("ab,ijcb->ijca", x57, t2)
    .add 109 (.ein [(108, [0, 1]), (6, [2, 3, 4, 1])] [2, 3, 4, 0]) 1 1,
    -- 319: x59 += einsum("ijab->ijab", x58) * 0.5
    .add 107 (.ein [(109, [0, 1, 2, 3])] [0, 1, 2, 3]) 1 2,
    -- 320: del x58
    .del 109,
    -- 321: t2new += einsum("ijab->ijab", x59) * -1
    .add 81 (.ein [(107, [0, 1, 2, 3])] [0, 1, 2, 3]) (-1) 1,
    -- 322: t2new += einsum("ijab->ijba", x59)
    .add 81 (.ein [(107, [0, 1, 2, 3])] [0, 1, 3, 2]) 1 1,
    -- 323: del x59
    .del 107,
    -- 324: x77 += einsum("ab->ab", x57)
    .add 43 (.ein [(108, [0, 1])] [0, 1]) 1 1,
    -- 325: x109 += einsum("ab->ab", x57)
    .add 75 (.ein [(108, [0, 1])] [0, 1]) 1 1,
    -- 326: del x57
    .del 108,
    -- 327: x63 = np.zeros((nocc, nocc, nvir, nvir), dtype=types[float])
    .zeros 110 [0, 0, 1, 1],
    -- 328: x63 += einsum("ab,ijcb->ijac", f.vv, t2)
    .add 110 (.ein [(14, [0, 1]), (6, [2, 3, 4, 1])] [2, 3, 0, 4]) 1 1,
    -- 329: t2new += einsum("ijab->jiab", x63)
    .add 81 (.ein [(110, [0, 1, 2, 3])] [1, 0, 2, 3]) 1 1,
    -- 330: t2new -= einsum("ijab->jiba", x63)
    .add 81 (.ein [(110, [0, 1, 2, 3])] [1, 0, 3, 2]) (-1) 1,
    -- 331: del x63
    .del 110,
    -- 332: x64 = np.zeros((nocc, nocc, nocc, nocc), dtype=types[float])
    .zeros 111 [0, 0, 0, 0],
    -- 333: x64 += einsum("ijab,klab->ijkl", t2, v.oovv)
    .add 111 (.ein [(6, [0, 1, 2, 3]), (5, [4, 5, 2, 3])] [0, 1, 4, 5]) 1 1,
    -- 334: x66 += einsum("ijkl->lkji", x64)
    .add 34 (.ein [(111, [0, 1, 2, 3])] [3, 2, 1, 0]) 1 1,
    -- 335: x67 += einsum("ijkl->lkji", x64) * 0.5000000000000003
    .add 35 (.ein [(111, [0, 1, 2, 3])] [3, 2, 1, 0]) 1 2,
    -- 336: del x64
    .del 111,
    -- 337: x66 += einsum("ijkl->jilk", v.oooo) * 2
    .add 34 (.ein [(20, [0, 1, 2, 3])] [1, 0, 3, 2]) 2 1,
    -- 338: t2new += einsum("ijab,ijkl->lkba", t2, x66) * 0.25
    .add 81 (.ein [(6, [0, 1, 2, 3]), (34, [0, 1, 4, 5])] [5, 4, 3, 2]) 1 4,
    -- 339: del x66
    .del 34,
    -- 340: x67 += einsum("ijkl->jilk", v.oooo)
    .add 35 (.ein [(20, [0, 1, 2, 3])] [1, 0, 3, 2]) 1 1,
    -- 341: x68 = np.zeros((nocc, nocc, nocc, nvir), dtype=types[float])
    .zeros 112 [0, 0, 0, 1],
    -- 342: x68 += einsum("ia,ijkl->lkja", t1, x67)
    .add 112 (.ein [(4, [0, 1]), (35, [0, 2, 3, 4])] [4, 3, 2, 1]) 1 1,
    -- 343: del x67
    .del 35,
    -- 344: x68 += einsum("iajk->kjia", v.ovoo)
    .add 112 (.ein [(21, [0, 1, 2, 3])] [3, 2, 0, 1]) 1 1,
    -- 345: t2new += einsum("ia,jkib->jkab", t1, x68)
    .add 81 (.ein [(4, [0, 1]), (112, [2, 3, 0, 4])] [2, 3, 1, 4]) 1 1,
    -- 346: del x68
    .del 112,
    -- 347: x69 = np.zeros((nbos, nocc, nvir), dtype=types[float])
    .zeros 113 [2, 0, 1],
    -- 348: x69 += einsum("wia,ijab->wjb", u11, v.oovv)
    .add 113 (.ein [(10, [0, 1, 2]), (5, [1, 3, 2, 4])] [0, 3, 4]) 1 1,
    -- 349: x76 = np.zeros((nbos, nocc, nvir), dtype=types[float])
    .zeros 114 [2, 0, 1],
    -- 350: x76 += einsum("wia->wia", x69)
    .add 114 (.ein [(113, [0, 1, 2])] [0, 1, 2]) 1 1,
    -- 351: x97 = np.zeros((nbos, nvir, nvir), dtype=types[float])
    .zeros 115 [2, 1, 1],
    -- 352: x97 += einsum("ia,wib->wab", t1, x69)
    .add 115 (.ein [(4, [0, 1]), (113, [2, 0, 3])] [2, 1, 3]) 1 1,
    -- 353: x98 = np.zeros((nbos, nvir, nvir), dtype=types[float])
    .zeros 116 [2, 1, 1],
    -- 354: x98 += einsum("wab->wba", x97)
    .add 116 (.ein [(115, [0, 1, 2])] [0, 2, 1]) 1 1,
    -- 355: del x97
    .del 115,
    -- 356: x102 = np.zeros((nbos, nocc, nocc), dtype=types[float])
    .zeros 117 [2, 0, 0],
    -- 357: x102 += einsum("ia,wja->wij", t1, x69)
    .add 117 (.ein [(4, [0, 1]), (113, [2, 3, 1])] [2, 0, 3]) 1 1,
    -- 358: x103 = np.zeros((nbos, nocc, nocc), dtype=types[float])
    .zeros 118 [2, 0, 0],
    -- 359: x103 += einsum("wij->wji", x102)
    .add 118 (.ein [(117, [0, 1, 2])] [0, 2, 1]) 1 1,
    -- 360: del x102
    .del 117,
    -- 361: s2new += einsum("wia,xia->wx", u11, x69)
    .add 52 (.ein [(10, [0, 1, 2]), (113, [3, 1, 2])] [0, 3]) 1 1,
    -- 362: del x69
    .del 113,
    -- 363: x70 = np.zeros((nbos, nbos), dtype=types[float])
    .zeros 119 [2, 2],
    -- 364: x70 += einsum("wia,xia->wx", gc.bov, u11)
    .add 119 (.ein [(26, [0, 1, 2]), (10, [3, 1, 2])] [0, 3]) 1 1,
    -- 365: x74 = np.zeros((nbos, nbos), dtype=types[float])
    .zeros 120 [2, 2],
    -- 366: x74 += einsum("wx->wx", x70)
    .add 120 (.ein [(119, [0, 1])] [0, 1]) 1 1,
    -- 367: del x70
    .del 119,
    -- 368: x71 = np.zeros((nbos, nbos), dtype=types[float])
    .zeros 121 [2, 2],
    -- 369: x71 += einsum("wia,xia->wx", g.bov, u11)
    .add 121 (.ein [(2, [0, 1, 2]), (10, [3, 1, 2])] [0, 3]) 1 1,
    -- 370: x72 = np.zeros((nbos, nbos), dtype=types[float])
    .zeros 122 [2, 2],
    -- 371: x72 += einsum("wx->xw", x71)
    .add 122 (.ein [(121, [0, 1])] [1, 0]) 1 1,
    -- 372: x90 = np.zeros((nbos, nbos, nocc, nvir), dtype=types[float])
    .zeros 123 [2, 2, 0, 1],
    -- 373: x90 += einsum("wx,ywia->xyia", x71, u12)
    .add 123 (.ein [(121, [0, 1]), (11, [2, 0, 3, 4])] [1, 2, 3, 4]) 1 1,
    -- 374: del x71
    .del 121,
    -- 375: x107 = np.zeros((nbos, nbos, nocc, nvir), dtype=types[float])
    .zeros 124 [2, 2, 0, 1],
    -- 376: x107 -= einsum("wxia->wxia", x90)
    .add 124 (.ein [(123, [0, 1, 2, 3])] [0, 1, 2, 3]) (-1) 1,
    -- 377: del x90
    .del 123,
    -- 378: x72 += einsum("wx->wx", w)
    .add 122 (.ein [(22, [0, 1])] [0, 1]) 1 1,
    -- 379: x73 = np.zeros((nbos, nbos), dtype=types[float])
    .zeros 125 [2, 2],
    -- 380: x73 += einsum("wx,yw->xy", s2, x72)
    .add 125 (.ein [(16, [0, 1]), (122, [2, 0])] [1, 2]) 1 1,
    -- 381: x74 += einsum("wx->wx", x73)
    .add 120 (.ein [(125, [0, 1])] [0, 1]) 1 1,
    -- 382: del x73
    .del 125,
    -- 383: s2new += einsum("wx->wx", x74)
    .add 52 (.ein [(120, [0, 1])] [0, 1]) 1 1,
    -- 384: s2new += einsum("wx->xw", x74)
    .add 52 (.ein [(120, [0, 1])] [1, 0]) 1 1,
    -- 385: del x74
    .del 120,
    -- 386: u11new += einsum("wx,xia->wia", x72, u11)
    .add 57 (.ein [(122, [0, 1]), (10, [1, 2, 3])] [0, 2, 3]) 1 1,
    -- 387: del x72
    .del 122,
    -- 388: x75 = np.zeros((nbos, nocc, nvir), dtype=types[float])
    .zeros 126 [2, 0, 1],
    -- 389: x75 += einsum("wx,xia->wia", s2, g.bov)
    .add 126 (.ein [(16, [0, 1]), (2, [1, 2, 3])] [0, 2, 3]) 1 1,
    -- 390: x76 += einsum("wia->wia", x75)
    .add 114 (.ein [(126, [0, 1, 2])] [0, 1, 2]) 1 1,
    -- 391: x92 = np.zeros((nbos, nocc, nvir), dtype=types[float])
    .zeros 127 [2, 0, 1],
    -- 392: x92 += einsum("wia->wia", x75)
    .add 127 (.ein [(126, [0, 1, 2])] [0, 1, 2]) 1 1,
    -- 393: del x75
    .del 126,
    -- 394: x76 += einsum("wia->wia", gc.bov)
    .add 114 (.ein [(26, [0, 1, 2])] [0, 1, 2]) 1 1,
    -- 395: x82 = np.zeros((nbos, nocc, nocc), dtype=types[float])
    .zeros 128 [2, 0, 0],
    -- 396: x82 += einsum("ia,wja->wji", t1, x76)
    .add 128 (.ein [(4, [0, 1]), (114, [2, 3, 1])] [2, 3, 0]) 1 1,
    -- 397: u11new += einsum("wia,ijab->wjb", x76, t2)
    .add 57 (.ein [(114, [0, 1, 2]), (6, [1, 3, 2, 4])] [0, 3, 4]) 1 1,
    -- 398: del x76
    .del 114,
    -- 399: x77 += einsum("ab->ab", f.vv) * -2
    .add 43 (.ein [(14, [0, 1])] [0, 1]) (-2) 1,
    -- 400: u11new += einsum("ab,wib->wia", x77, u11) * -0.5
    .add 57 (.ein [(43, [0, 1]), (10, [2, 3, 1])] [2, 3, 0]) (-1) 2,
    -- 401: del x77
    .del 43,
    -- 402: x78 = np.zeros((nbos, nocc, nocc), dtype=types[float])
    .zeros 129 [2, 0, 0],
    -- 403: x78 += einsum("wx,xij->wij", s2, g.boo)
    .add 129 (.ein [(16, [0, 1]), (0, [1, 2, 3])] [0, 2, 3]) 1 1,
    -- 404: x82 += einsum("wij->wij", x78)
    .add 128 (.ein [(129, [0, 1, 2])] [0, 1, 2]) 1 1,
    -- 405: x94 += einsum("wij->wij", x78)
    .add 49 (.ein [(129, [0, 1, 2])] [0, 1, 2]) 1 1,
    -- 406: del x78
    .del 129,
    -- 407: x79 = np.zeros((nbos, nocc, nocc), dtype=types[float])
    .zeros 130 [2, 0, 0],
    -- 408: x79 += einsum("wia,xwja->xij", g.bov, u12)
    .add 130 (.ein [(2, [0, 1, 2]), (11, [3, 0, 4, 2])] [3, 1, 4]) 1 1,
    -- 409: x82 += einsum("wij->wij", x79)
    .add 128 (.ein [(130, [0, 1, 2])] [0, 1, 2]) 1 1,
    -- 410: x103 += einsum("wij->wij", x79)
    .add 118 (.ein [(130, [0, 1, 2])] [0, 1, 2]) 1 1,
    -- 411: del x79
    .del 130,
    -- 412: x80 = np.zeros((nbos, nocc, nocc), dtype=types[float])
    .zeros 131 [2, 0, 0],
    -- 413: x80 -= einsum("wia,ijka->wjk", u11, v.ooov)
    .add 131 (.ein [(10, [0, 1, 2]), (7, [1, 3, 4, 2])] [0, 3, 4]) (-1) 1,
    -- 414: x82 += einsum("wij->wij", x80)
    .add 128 (.ein [(131, [0, 1, 2])] [0, 1, 2]) 1 1,
    -- 415: x103 += einsum("wij->wij", x80)
    .add 118 (.ein [(131, [0, 1, 2])] [0, 1, 2]) 1 1,
    -- 416: del x80
    .del 131,
    -- 417: x104 = np.zeros((nbos, nbos, nocc, nvir), dtype=types[float])
    .zeros 132 [2, 2, 0, 1],
    -- 418: x104 += einsum("wia,xij->wxja", u11, x103)
    .add 132 (.ein [(10, [0, 1, 2]), (118, [3, 1, 4])] [0, 3, 4, 2]) 1 1,
    -- 419: del x103
    .del 118,
    -- 420: x107 += einsum("wxia->wxia", x104)
    .add 124 (.ein [(132, [0, 1, 2, 3])] [0, 1, 2, 3]) 1 1,
    -- 421: del x104
    .del 132,
    -- 422: x81 += einsum("ia->ia", f.ov)
    .add 41 (.ein [(9, [0, 1])] [0, 1]) 1 1,
    -- 423: x82 += einsum("ia,wja->wij", x81, u11)
    .add 128 (.ein [(41, [0, 1]), (10, [2, 3, 1])] [2, 0, 3]) 1 1,
    -- 424: del x81
    .del 41,
    -- 425: x82 += einsum("wij->wij", gc.boo)
    .add 128 (.ein [(25, [0, 1, 2])] [0, 1, 2]) 1 1,
    -- 426: u11new -= einsum("ia,wij->wja", t1, x82)
    .add 57 (.ein [(4, [0, 1]), (128, [2, 0, 3])] [2, 3, 1]) (-1) 1,
    -- 427: del x82
    .del 128,
    -- 428: x83 += einsum("ij->ij", f.oo) * 2
    .add 60 (.ein [(12, [0, 1])] [0, 1]) 2 1,
    -- 429: u11new += einsum("ij,wia->wja", x83, u11) * -0.5
    .add 57 (.ein [(60, [0, 1]), (10, [2, 0, 3])] [2, 1, 3]) (-1) 2,
    -- 430: del x83
    .del 60,
    -- 431: x84 = np.zeros((nbos, nvir, nvir), dtype=types[float])
    .zeros 133 [2, 1, 1],
    -- 432: x84 += einsum("wx,xab->wab", s2, g.bvv)
    .add 133 (.ein [(16, [0, 1]), (3, [1, 2, 3])] [0, 2, 3]) 1 1,
    -- 433: x86 = np.zeros((nbos, nvir, nvir), dtype=types[float])
    .zeros 134 [2, 1, 1],
    -- 434: x86 += einsum("wab->wab", x84)
    .add 134 (.ein [(133, [0, 1, 2])] [0, 1, 2]) 1 1,
    -- 435: x100 = np.zeros((nbos, nvir, nvir), dtype=types[float])
    .zeros 135 [2, 1, 1],
    -- 436: x100 += einsum("wab->wab", x84)
    .add 135 (.ein [(133, [0, 1, 2])] [0, 1, 2]) 1 1,
    -- 437: del x84
    .del 133,
    -- 438: x85 = np.zeros((nbos, nvir, nvir), dtype=types[float])
    .zeros 136 [2, 1, 1],
    -- 439: x85 -= einsum("wia,ibac->wbc", u11, v.ovvv)
    .add 136 (.ein [(10, [0, 1, 2]), (13, [1, 3, 2, 4])] [0, 3, 4]) (-1) 1,
    -- 440: x86 -= einsum("wab->wab", x85)
    .add 134 (.ein [(136, [0, 1, 2])] [0, 1, 2]) (-1) 1,
    -- 441: x98 += einsum("wab->wba", x85)
    .add 116 (.ein [(136, [0, 1, 2])] [0, 2, 1]) 1 1,
    -- 442: del x85
    .del 136,
    -- 443: x86 += einsum("wab->wab", gc.bvv)
    .add 134 (.ein [(28, [0, 1, 2])] [0, 1, 2]) 1 1,
    -- 444: u11new += einsum("ia,wba->wib", t1, x86)
    .add 57 (.ein [(4, [0, 1]), (134, [2, 3, 1])] [2, 0, 3]) 1 1,
    -- 445: del x86
    .del 134,
    -- 446: x87 = np.zeros((nbos, nbos, nocc, nvir), dtype=types[float])
    .zeros 137 [2, 2, 0, 1],
    -- 447: x87 += einsum("wxia,ijab->wxjb", u12, v.oovv)
    .add 137 (.ein [(11, [0, 1, 2, 3]), (5, [2, 4, 3, 5])] [0, 1, 4, 5]) 1 1,
    -- 448: u12new += einsum("ijab,wxjb->xwia", t2, x87)
    .add 70 (.ein [(6, [0, 1, 2, 3]), (137, [4, 5, 1, 3])] [5, 4, 0, 2]) 1 1,
    -- 449: del x87
    .del 137,
    -- 450: x88 = np.zeros((nbos, nbos, nbos), dtype=types[float])
    .zeros 138 [2, 2, 2],
    -- 451: x88 += einsum("wia,xyia->wxy", g.bov, u12)
    .add 138 (.ein [(2, [0, 1, 2]), (11, [3, 4, 1, 2])] [0, 3, 4]) 1 1,
    -- 452: u12new += einsum("wia,wxy->yxia", u11, x88)
    .add 70 (.ein [(10, [0, 1, 2]), (138, [0, 3, 4])] [4, 3, 1, 2]) 1 1,
    -- 453: del x88
    .del 138,
    -- 454: x89 = np.zeros((nbos, nbos, nocc, nvir), dtype=types[float])
    .zeros 139 [2, 2, 0, 1],
    -- 455: x89 += einsum("wx,yxia->ywia", w, u12)
    .add 139 (.ein [(22, [0, 1]), (11, [2, 1, 3, 4])] [2, 0, 3, 4]) 1 1,
    -- 456: x107 -= einsum("wxia->wxia", x89)
    .add 124 (.ein [(139, [0, 1, 2, 3])] [0, 1, 2, 3]) (-1) 1,
    -- 457: del x89
    .del 139,
    -- 458: x92 += einsum("wia->wia", gc.bov)
    .add 127 (.ein [(26, [0, 1, 2])] [0, 1, 2]) 1 1,
    -- 459: x93 = np.zeros((nbos, nocc, nocc), dtype=types[float])
    .zeros 140 [2, 0, 0],
    -- 460: x93 += einsum("ia,wja->wij", t1, x92)
    .add 140 (.ein [(4, [0, 1]), (127, [2, 3, 1])] [2, 0, 3]) 1 1,
    -- 461: x94 += einsum("wij->wji", x93)
    .add 49 (.ein [(140, [0, 1, 2])] [0, 2, 1]) 1 1,
    -- 462: del x93
    .del 140,
    -- 463: x105 = np.zeros((nbos, nbos, nocc, nocc), dtype=types[float])
    .zeros 141 [2, 2, 0, 0],
    -- 464: x105 += einsum("wia,xja->wxij", u11, x92)
    .add 141 (.ein [(10, [0, 1, 2]), (127, [3, 4, 2])] [0, 3, 1, 4]) 1 1,
    -- 465: del x92
    .del 127,
    -- 466: x106 = np.zeros((nbos, nbos, nocc, nvir), dtype=types[float])
    .zeros 142 [2, 2, 0, 1],
    -- 467: x106 += einsum("ia,wxji->xwja", t1, x105)
    .add 142 (.ein [(4, [0, 1]), (141, [2, 3, 4, 0])] [3, 2, 4, 1]) 1 1,
    -- 468: del x105
    .del 141,
    -- 469: x107 += einsum("wxia->wxia", x106)
    .add 124 (.ein [(142, [0, 1, 2, 3])] [0, 1, 2, 3]) 1 1,
    -- 470: del x106
    .del 142,
    -- 471: x94 += einsum("wij->wij", gc.boo)
    .add 49 (.ein [(25, [0, 1, 2])] [0, 1, 2]) 1 1,
    -- 472: x95 = np.zeros((nbos, nbos, nocc, nvir), dtype=types[float])
    .zeros 143 [2, 2, 0, 1],
    -- 473: x95 += einsum("wia,xij->wxja", u11, x94)
    .add 143 (.ein [(10, [0, 1, 2]), (49, [3, 1, 4])] [0, 3, 4, 2]) 1 1,
    -- 474: del x94
    .del 49,
    -- 475: x107 += einsum("wxia->xwia", x95)
    .add 124 (.ein [(143, [0, 1, 2, 3])] [1, 0, 2, 3]) 1 1,
    -- 476: del x95
    .del 143,
    -- 477: x96 = np.zeros((nbos, nvir, nvir), dtype=types[float])
    .zeros 144 [2, 1, 1],
    -- 478: x96 += einsum("wia,xwib->xab", g.bov, u12)
    .add 144 (.ein [(2, [0, 1, 2]), (11, [3, 0, 1, 4])] [3, 2, 4]) 1 1,
    -- 479: x98 += einsum("wab->wab", x96)
    .add 116 (.ein [(144, [0, 1, 2])] [0, 1, 2]) 1 1,
    -- 480: del x96
    .del 144,
    -- 481: x99 = np.zeros((nbos, nbos, nocc, nvir), dtype=types[float])
    .zeros 145 [2, 2, 0, 1],
    -- 482: x99 += einsum("wia,xab->wxib", u11, x98)
    .add 145 (.ein [(10, [0, 1, 2]), (116, [3, 2, 4])] [0, 3, 1, 4]) 1 1,
    -- 483: del x98
    .del 116,
    -- 484: x107 += einsum("wxia->wxia", x99)
    .add 124 (.ein [(145, [0, 1, 2, 3])] [0, 1, 2, 3]) 1 1,
    -- 485: del x99
    .del 145,
    -- 486: x100 += einsum("wab->wab", gc.bvv)
    .add 135 (.ein [(28, [0, 1, 2])] [0, 1, 2]) 1 1,
    -- 487: x101 = np.zeros((nbos, nbos, nocc, nvir), dtype=types[float])
    .zeros 146 [2, 2, 0, 1],
    -- 488: x101 += einsum("wia,xba->wxib", u11, x100)
    .add 146 (.ein [(10, [0, 1, 2]), (135, [3, 4, 2])] [0, 3, 1, 4]) 1 1,
    -- 489: del x100
    .del 135,
    -- 490: x107 -= einsum("wxia->xwia", x101)
    .add 124 (.ein [(146, [0, 1, 2, 3])] [1, 0, 2, 3]) (-1) 1,
    -- 491: del x101
    .del 146,
    -- 492: u12new -= einsum("wxia->wxia", x107)
    .add 70 (.ein [(124, [0, 1, 2, 3])] [0, 1, 2, 3]) (-1) 1,
    -- 493: u12new -= einsum("wxia->xwia", x107)
    .add 70 (.ein [(124, [0, 1, 2, 3])] [1, 0, 2, 3]) (-1) 1,
    -- 494: del x107
    .del 124,
    -- 495: x108 += einsum("iajb->ijab", v.ovov)
    .add 94 (.ein [(19, [0, 1, 2, 3])] [0, 2, 1, 3]) 1 1,
    -- 496: u12new -= einsum("wxia,ijba->xwjb", u12, x108)
    .add 70 (.ein [(11, [0, 1, 2, 3]), (94, [2, 4, 5, 3])] [1, 0, 4, 5]) (-1) 1,
    -- 497: del x108
    .del 94,
    -- 498: x109 += einsum("ab->ab", f.vv) * -2
    .add 75 (.ein [(14, [0, 1])] [0, 1]) (-2) 1,
    -- 499: u12new += einsum("ab,wxib->xwia", x109, u12) * -0.5
    .add 70 (.ein [(75, [0, 1]), (11, [2, 3, 4, 1])] [3, 2, 4, 0]) (-1) 2,
    -- 500: del x109
    .del 75,
    -- 501: x110 -= einsum("ijka->jika", v.ooov)
    .add 36 (.ein [(7, [0, 1, 2, 3])] [1, 0, 2, 3]) (-1) 1,
    -- 502: x111 -= einsum("wxia,ijka->xwjk", u12, x110)
    .add 50 (.ein [(11, [0, 1, 2, 3]), (36, [2, 4, 5, 3])] [1, 0, 4, 5]) (-1) 1,
    -- 503: del x110
    .del 36,
    -- 504: u12new -= einsum("ia,wxij->xwja", t1, x111)
    .add 70 (.ein [(4, [0, 1]), (50, [2, 3, 0, 4])] [3, 2, 4, 1]) (-1) 1,
    -- 505: del x111
    .del 50,
    -- 506: t1new += einsum("w,wai->ia", s1, g.bvo)
    .add 37 (.ein [(8, [0]), (1, [0, 1, 2])] [2, 1]) 1 1,
    -- 507: t1new += einsum("ai->ia", f.vo)
    .add 37 (.ein [(23, [0, 1])] [1, 0]) 1 1,
    -- 508: t1new += einsum("ijab,jcab->ic", t2, v.ovvv) * -0.5
    .add 37 (.ein [(6, [0, 1, 2, 3]), (13, [1, 4, 2, 3])] [0, 4]) (-1) 2,
    -- 509: t1new -= einsum("ia,ibja->jb", t1, v.ovov)
    .add 37 (.ein [(4, [0, 1]), (19, [0, 2, 3, 1])] [3, 2]) (-1) 1,
    -- 510: t1new += einsum("wab,wib->ia", g.bvv, u11)
    .add 37 (.ein [(3, [0, 1, 2]), (10, [0, 3, 2])] [3, 1]) 1 1,
    -- 511: t2new -= einsum("ia,ibjk->kjba", t1, v.ovoo)
    .add 81 (.ein [(4, [0, 1]), (21, [0, 2, 3, 4])] [4, 3, 2, 1]) (-1) 1,
    -- 512: t2new += einsum("abij->jiba", v.vvoo)
    .add 81 (.ein [(24, [0, 1, 2, 3])] [3, 2, 1, 0]) 1 1,
    -- 513: t2new += einsum("ijab,cdab->jidc", t2, v.vvvv) * 0.5
    .add 81 (.ein [(6, [0, 1, 2, 3]), (17, [4, 5, 2, 3])] [1, 0, 5, 4]) 1 2,
    -- 514: s1new += einsum("w,xw->x", s1, w)
    .add 51 (.ein [(8, [0]), (22, [1, 0])] [1]) 1 1,
    -- 515: s1new += einsum("ia,wia->w", t1, gc.bov)
    .add 51 (.ein [(4, [0, 1]), (26, [2, 0, 1])] [2]) 1 1,
    -- 516: s1new += einsum("w->w", G)
    .add 51 (.ein [(15, [0])] [0]) 1 1,
    -- 517: s1new += einsum("wia,xwia->x", g.bov, u12)
    .add 51 (.ein [(2, [0, 1, 2]), (11, [3, 0, 1, 2])] [3]) 1 1,
    -- 518: u11new += einsum("wx,xai->wia", s2, g.bvo)
    .add 57 (.ein [(16, [0, 1]), (1, [1, 2, 3])] [0, 3, 2]) 1 1,
    -- 519: u11new += einsum("wai->wia", gc.bvo)
    .add 57 (.ein [(27, [0, 1, 2])] [0, 2, 1]) 1 1,
    -- 520: u11new -= einsum("wia,ibja->wjb", u11, v.ovov)
    .add 57 (.ein [(10, [0, 1, 2]), (19, [1, 3, 4, 2])] [0, 4, 3]) (-1) 1,
    -- 521: u11new += einsum("wab,xwib->xia", g.bvv, u12)
    .add 57 (.ein [(3, [0, 1, 2]), (11, [3, 0, 4, 2])] [3, 4, 1]) 1 1
  ]
  ret := [(chars! "t1new", 37), (chars! "t2new", 81), (chars! "s1new", 51), (chars! "s2new", 52), (chars! "u11new", 57), (chars! "u12new", 70)]

/-- codegen/GCCSD_SD_1_2.py:525-1324 `update_lams`. -/
def update_lams : GenFun where
  args := [chars! "g.boo", chars! "g.bvo", chars! "g.bov", chars! "g.bvv", chars! "l2", chars! "t2", chars! "v.ooov", chars! "t1", chars! "v.oovv", chars! "v.ovvv", chars! "l1", chars! "s1", chars! "f.ov", chars! "u12", chars! "u11", chars! "ls1", chars! "ls2", chars! "v.oooo", chars! "v.ovov", chars! "v.ovoo", chars! "lu12", chars! "v.vvov", chars! "v.vvvv", chars! "s2", chars! "lu11", chars! "f.oo", chars! "f.vv", chars! "G", chars! "f.vo", chars! "w"]
  body := [
    -- 527: gc = Namespace(
    .set 30 (.tr 0 [0, 2, 1]) 1 1,
    .set 31 (.tr 1 [0, 2, 1]) 1 1,
    .set 32 (.tr 2 [0, 2, 1]) 1 1,
    .set 33 (.tr 3 [0, 2, 1]) 1 1,
    -- 535: x0 = np.zeros((nocc, nocc, nocc, nocc), dtype=types[float])
    .zeros 34 [0, 0, 0, 0],
    -- 536: x0 += einsum("abij,klab->ijkl", l2, t2)
    .add 34 (.ein [(4, [0, 1, 2, 3]), (5, [4, 5, 0, 1])] [2, 3, 4, 5]) 1 1,
    -- 537: x15 = np.zeros((nocc, nocc, nocc, nocc), dtype=types[float])
    .zeros 35 [0, 0, 0, 0],
    -- 538: x15 += einsum("ijkl->jilk", x0) * -1
    .add 35 (.ein [(34, [0, 1, 2, 3])] [1, 0, 3, 2]) (-1) 1,
    -- 539: x134 = np.zeros((nocc, nocc, nocc, nocc), dtype=types[float])
    .zeros 36 [0, 0, 0, 0],
    -- 540: x134 += einsum("ijkl->jilk", x0) * -0.5
    .add 36 (.ein [(34, [0, 1, 2, 3])] [1, 0, 3, 2]) (-1) 2,
    -- 541: l1new = np.zeros((nvir, nocc), dtype=types[float])
    .zeros 37 [1, 0],
    -- 542: l1new += einsum("ijka,lkij->al", v.ooov, x0) * -0.25
    .add 37 (.ein [(6, [0, 1, 2, 3]), (34, [4, 2, 0, 1])] [3, 4]) (-1) 4,
    -- 543: del x0
    .del 34,
    -- 544: x1 = np.zeros((nocc, nocc, nocc, nvir), dtype=types[float])
    .zeros 38 [0, 0, 0, 1],
    -- 545: x1 += einsum("ia,bajk->jkib", t1, l2)
    .add 38 (.ein [(7, [0, 1]), (4, [2, 1, 3, 4])] [3, 4, 0, 2]) 1 1,
    -- 546: x2 = np.zeros((nocc, nocc, nocc, nocc), dtype=types[float])
    .zeros 39 [0, 0, 0, 0],
    -- 547: x2 += einsum("ia,jkla->jkil", t1, x1)
    .add 39 (.ein [(7, [0, 1]), (38, [2, 3, 4, 1])] [2, 3, 0, 4]) 1 1,
    -- 548: x15 += einsum("ijkl->ijlk", x2) * 2.0000000000000013
    .add 35 (.ein [(39, [0, 1, 2, 3])] [0, 1, 3, 2]) 2 1,
    -- 549: x16 = np.zeros((nocc, nocc, nocc, nvir), dtype=types[float])
    .zeros 40 [0, 0, 0, 1],
    -- 550: x16 += einsum("ia,ijkl->jlka", t1, x15) * -0.5
    .add 40 (.ein [(7, [0, 1]), (35, [0, 2, 3, 4])] [2, 4, 3, 1]) (-1) 2,
    -- 551: del x15
    .del 35,
    -- 552: x134 += einsum("ijkl->ijlk", x2)
    .add 36 (.ein [(39, [0, 1, 2, 3])] [0, 1, 3, 2]) 1 1,
    -- 553: l2new = np.zeros((nvir, nvir, nocc, nocc), dtype=types[float])
    .zeros 41 [1, 1, 0, 0],
    -- 554: l2new += einsum("ijab,klij->balk", v.oovv, x134) * -0.5
    .add 41 (.ein [(8, [0, 1, 2, 3]), (36, [4, 5, 0, 1])] [3, 2, 5, 4]) (-1) 2,
    -- 555: del x134
    .del 36,
    -- 556: l1new += einsum("ijka,lkji->al", v.ooov, x2) * 0.5
    .add 37 (.ein [(6, [0, 1, 2, 3]), (39, [4, 2, 1, 0])] [3, 4]) 1 2,
    -- 557: del x2
    .del 39,
    -- 558: x16 += einsum("ijab,kjlb->klia", t2, x1) * 2
    .add 40 (.ein [(5, [0, 1, 2, 3]), (38, [4, 1, 5, 3])] [4, 5, 0, 2]) 2 1,
    -- 559: x47 = np.zeros((nocc, nvir), dtype=types[float])
    .zeros 42 [0, 1],
    -- 560: x47 += einsum("ijab,ijka->kb", t2, x1)
    .add 42 (.ein [(5, [0, 1, 2, 3]), (38, [0, 1, 4, 2])] [4, 3]) 1 1,
    -- 561: x56 = np.zeros((nocc, nvir), dtype=types[float])
    .zeros 43 [0, 1],
    -- 562: x56 += einsum("ia->ia", x47) * 0.5
    .add 43 (.ein [(42, [0, 1])] [0, 1]) 1 2,
    -- 563: x149 = np.zeros((nocc, nvir), dtype=types[float])
    .zeros 44 [0, 1],
    -- 564: x149 += einsum("ia->ia", x47)
    .add 44 (.ein [(42, [0, 1])] [0, 1]) 1 1,
    -- 565: del x47
    .del 42,
    -- 566: l2new += einsum("iabc,jkia->cbkj", v.ovvv, x1)
    .add 41 (.ein [(9, [0, 1, 2, 3]), (38, [4, 5, 0, 1])] [3, 2, 5, 4]) 1 1,
    -- 567: x3 = np.zeros((nocc, nocc, nocc, nvir), dtype=types[float])
    .zeros 45 [0, 0, 0, 1],
    -- 568: x3 += einsum("ia,jkba->ijkb", t1, v.oovv)
    .add 45 (.ein [(7, [0, 1]), (8, [2, 3, 4, 1])] [0, 2, 3, 4]) 1 1,
    -- 569: x4 = np.zeros((nocc, nocc, nocc, nvir), dtype=types[float])
    .zeros 46 [0, 0, 0, 1],
    -- 570: x4 += einsum("ijka->ikja", x3) * -1
    .add 46 (.ein [(45, [0, 1, 2, 3])] [0, 2, 1, 3]) (-1) 1,
    -- 571: x9 = np.zeros((nocc, nocc, nocc, nvir), dtype=types[float])
    .zeros 47 [0, 0, 0, 1],
    -- 572: x9 += einsum("ijka->kjia", x3) * 0.5000000000000003
    .add 47 (.ein [(45, [0, 1, 2, 3])] [2, 1, 0, 3]) 1 2,
    -- 573: x20 = np.zeros((nocc, nocc, nocc, nvir), dtype=types[float])
    .zeros 48 [0, 0, 0, 1],
    -- 574: x20 += einsum("ijka->kjia", x3)
    .add 48 (.ein [(45, [0, 1, 2, 3])] [2, 1, 0, 3]) 1 1,
    -- 575: x89 = np.zeros((nocc, nocc, nvir, nvir), dtype=types[float])
    .zeros 49 [0, 0, 1, 1],
    -- 576: x89 -= einsum("ai,ijkb->kjab", l1, x3)
    .add 49 (.ein [(10, [0, 1]), (45, [1, 2, 3, 4])] [3, 2, 0, 4]) (-1) 1,
    -- 577: x98 = np.zeros((nocc, nocc, nvir, nvir), dtype=types[float])
    .zeros 50 [0, 0, 1, 1],
    -- 578: x98 += einsum("ijab->ijab", x89)
    .add 50 (.ein [(49, [0, 1, 2, 3])] [0, 1, 2, 3]) 1 1,
    -- 579: del x89
    .del 49,
    -- 580: x104 = np.zeros((nocc, nocc, nocc, nvir), dtype=types[float])
    .zeros 51 [0, 0, 0, 1],
    -- 581: x104 -= einsum("ijka->ikja", x3)
    .add 51 (.ein [(45, [0, 1, 2, 3])] [0, 2, 1, 3]) (-1) 1,
    -- 582: x132 = np.zeros((nocc, nocc, nocc, nvir), dtype=types[float])
    .zeros 52 [0, 0, 0, 1],
    -- 583: x132 += einsum("ijka->kjia", x3) * 0.5
    .add 52 (.ein [(45, [0, 1, 2, 3])] [2, 1, 0, 3]) 1 2,
    -- 584: x4 += einsum("ijka->kjia", v.ooov)
    .add 46 (.ein [(6, [0, 1, 2, 3])] [2, 1, 0, 3]) 1 1,
    -- 585: x13 = np.zeros((nocc, nocc, nocc, nvir), dtype=types[float])
    .zeros 53 [0, 0, 0, 1],
    -- 586: x13 += einsum("ijab,kila->lkjb", t2, x4)
    .add 53 (.ein [(5, [0, 1, 2, 3]), (46, [4, 0, 5, 2])] [5, 4, 1, 3]) 1 1,
    -- 587: x42 = np.zeros((nocc, nvir), dtype=types[float])
    .zeros 54 [0, 1],
    -- 588: x42 += einsum("ijab,kija->kb", t2, x4)
    .add 54 (.ein [(5, [0, 1, 2, 3]), (46, [4, 0, 1, 2])] [4, 3]) 1 1,
    -- 589: x142 = np.zeros((nocc, nvir), dtype=types[float])
    .zeros 55 [0, 1],
    -- 590: x142 += einsum("ijab,kija->kb", t2, x4) * 0.5
    .add 55 (.ein [(5, [0, 1, 2, 3]), (46, [4, 0, 1, 2])] [4, 3]) 1 2,
    -- 591: del x4
    .del 46,
    -- 592: x148 = np.zeros((nocc, nvir), dtype=types[float])
    .zeros 56 [0, 1],
    -- 593: x148 += einsum("ia->ia", x142)
    .add 56 (.ein [(55, [0, 1])] [0, 1]) 1 1,
    -- 594: del x142
    .del 55,
    -- 595: x5 = np.zeros((nocc, nvir), dtype=types[float])
    .zeros 57 [0, 1],
    -- 596: x5 += einsum("w,wia->ia", s1, g.bov)
    .add 57 (.ein [(11, [0]), (2, [0, 1, 2])] [1, 2]) 1 1,
    -- 597: x7 = np.zeros((nocc, nvir), dtype=types[float])
    .zeros 58 [0, 1],
    -- 598: x7 += einsum("ia->ia", x5)
    .add 58 (.ein [(57, [0, 1])] [0, 1]) 1 1,
    -- 599: x64 = np.zeros((nocc, nvir), dtype=types[float])
    .zeros 59 [0, 1],
    -- 600: x64 += einsum("ia->ia", x5)
    .add 59 (.ein [(57, [0, 1])] [0, 1]) 1 1,
    -- 601: x96 = np.zeros((nocc, nvir), dtype=types[float])
    .zeros 60 [0, 1],
    -- 602: x96 += einsum("ia->ia", x5)
    .add 60 (.ein [(57, [0, 1])] [0, 1]) 1 1,
    -- 603: del x5
    .del 57,
    -- 604: x6 = np.zeros((nocc, nvir), dtype=types[float])
    .zeros 61 [0, 1],
    -- 605: x6 += einsum("ia,jiba->jb", t1, v.oovv)
    .add 61 (.ein [(7, [0, 1]), (8, [2, 0, 3, 1])] [2, 3]) 1 1,
    -- 606: x7 += einsum("ia->ia", x6)
    .add 58 (.ein [(61, [0, 1])] [0, 1]) 1 1,
    -- 607: x64 += einsum("ia->ia", x6)
    .add 59 (.ein [(61, [0, 1])] [0, 1]) 1 1,
    -- 608: x92 = np.zeros((nocc, nocc, nvir, nvir), dtype=types[float])
    .zeros 62 [0, 0, 1, 1],
    -- 609: x92 -= einsum("ia,jkib->kjba", x6, x1)
    .add 62 (.ein [(61, [0, 1]), (38, [2, 3, 0, 4])] [3, 2, 4, 1]) (-1) 1,
    -- 610: x98 -= einsum("ijab->ijab", x92)
    .add 50 (.ein [(62, [0, 1, 2, 3])] [0, 1, 2, 3]) (-1) 1,
    -- 611: del x92
    .del 62,
    -- 612: x107 = np.zeros((nocc, nocc, nvir, nvir), dtype=types[float])
    .zeros 63 [0, 0, 1, 1],
    -- 613: x107 += einsum("ai,jb->ijab", l1, x6)
    .add 63 (.ein [(10, [0, 1]), (61, [2, 3])] [1, 2, 0, 3]) 1 1,
    -- 614: x114 = np.zeros((nocc, nocc), dtype=types[float])
    .zeros 64 [0, 0],
    -- 615: x114 += einsum("ia,ja->ij", t1, x6)
    .add 64 (.ein [(7, [0, 1]), (61, [2, 1])] [0, 2]) 1 1,
    -- 616: del x6
    .del 61,
    -- 617: x115 = np.zeros((nocc, nocc), dtype=types[float])
    .zeros 65 [0, 0],
    -- 618: x115 += einsum("ij->ji", x114)
    .add 65 (.ein [(64, [0, 1])] [1, 0]) 1 1,
    -- 619: del x114
    .del 64,
    -- 620: x7 += einsum("ia->ia", f.ov)
    .add 58 (.ein [(12, [0, 1])] [0, 1]) 1 1,
    -- 621: x13 += einsum("ia,jkab->ikjb", x7, t2) * -0.5
    .add 53 (.ein [(58, [0, 1]), (5, [2, 3, 1, 4])] [0, 3, 2, 4]) (-1) 2,
    -- 622: x24 = np.zeros((nbos, nbos, nocc, nocc), dtype=types[float])
    .zeros 66 [2, 2, 0, 0],
    -- 623: x24 += einsum("ia,wxja->xwij", x7, u12) * 0.5
    .add 66 (.ein [(58, [0, 1]), (13, [2, 3, 4, 1])] [3, 2, 0, 4]) 1 2,
    -- 624: x35 = np.zeros((nocc, nocc), dtype=types[float])
    .zeros 67 [0, 0],
    -- 625: x35 += einsum("ia,ja->ij", t1, x7)
    .add 67 (.ein [(7, [0, 1]), (58, [2, 1])] [0, 2]) 1 1,
    -- 626: x36 = np.zeros((nocc, nocc), dtype=types[float])
    .zeros 68 [0, 0],
    -- 627: x36 += einsum("ij->ji", x35)
    .add 68 (.ein [(67, [0, 1])] [1, 0]) 1 1,
    -- 628: del x35
    .del 67,
    -- 629: x42 += einsum("ia,ijab->jb", x7, t2) * -2
    .add 54 (.ein [(58, [0, 1]), (5, [0, 2, 1, 3])] [2, 3]) (-2) 1,
    -- 630: x74 = np.zeros((nbos, nbos), dtype=types[float])
    .zeros 69 [2, 2],
    -- 631: x74 += einsum("ia,wxia->xw", x7, u12)
    .add 69 (.ein [(58, [0, 1]), (13, [2, 3, 0, 1])] [3, 2]) 1 1,
    -- 632: x137 = np.zeros((nbos, nocc, nocc), dtype=types[float])
    .zeros 70 [2, 0, 0],
    -- 633: x137 += einsum("ia,wja->wij", x7, u11)
    .add 70 (.ein [(58, [0, 1]), (14, [2, 3, 1])] [2, 0, 3]) 1 1,
    -- 634: x143 = np.zeros((nocc, nvir), dtype=types[float])
    .zeros 71 [0, 1],
    -- 635: x143 += einsum("ia,ijab->jb", x7, t2)
    .add 71 (.ein [(58, [0, 1]), (5, [0, 2, 1, 3])] [2, 3]) 1 1,
    -- 636: x148 += einsum("ia->ia", x143) * -1
    .add 56 (.ein [(71, [0, 1])] [0, 1]) (-1) 1,
    -- 637: del x143
    .del 71,
    -- 638: lu11new = np.zeros((nbos, nvir, nocc), dtype=types[float])
    .zeros 72 [2, 1, 0],
    -- 639: lu11new += einsum("w,ia->wai", ls1, x7) * 2
    .add 72 (.ein [(15, [0]), (58, [1, 2])] [0, 2, 1]) 2 1,
    -- 640: lu12new = np.zeros((nbos, nbos, nvir, nocc), dtype=types[float])
    .zeros 73 [2, 2, 1, 0],
    -- 641: lu12new += einsum("wx,ia->xwai", ls2, x7) * 2
    .add 73 (.ein [(16, [0, 1]), (58, [2, 3])] [1, 0, 3, 2]) 2 1,
    -- 642: del x7
    .del 58,
    -- 643: x8 = np.zeros((nocc, nocc, nocc, nocc), dtype=types[float])
    .zeros 74 [0, 0, 0, 0],
    -- 644: x8 += einsum("ijab,klab->ijkl", t2, v.oovv)
    .add 74 (.ein [(5, [0, 1, 2, 3]), (8, [4, 5, 2, 3])] [0, 1, 4, 5]) 1 1,
    -- 645: x10 = np.zeros((nocc, nocc, nocc, nocc), dtype=types[float])
    .zeros 75 [0, 0, 0, 0],
    -- 646: x10 += einsum("ijkl->lkji", x8)
    .add 75 (.ein [(74, [0, 1, 2, 3])] [3, 2, 1, 0]) 1 1,
    -- 647: x133 = np.zeros((nocc, nocc, nocc, nocc), dtype=types[float])
    .zeros 76 [0, 0, 0, 0],
    -- 648: x133 += einsum("ijkl->lkji", x8)
    .add 76 (.ein [(74, [0, 1, 2, 3])] [3, 2, 1, 0]) 1 1,
    -- 649: del x8
    .del 74,
    -- 650: x9 += einsum("ijka->jika", v.ooov) * -1
    .add 47 (.ein [(6, [0, 1, 2, 3])] [1, 0, 2, 3]) (-1) 1,
    -- 651: x10 += einsum("ia,jkla->kjli", t1, x9) * -4
    .add 75 (.ein [(7, [0, 1]), (47, [2, 3, 4, 1])] [3, 2, 4, 0]) (-4) 1,
    -- 652: del x9
    .del 47,
    -- 653: x10 += einsum("ijkl->jilk", v.oooo) * 2
    .add 75 (.ein [(17, [0, 1, 2, 3])] [1, 0, 3, 2]) 2 1,
    -- 654: x13 += einsum("ia,ijkl->jlka", t1, x10) * -0.25
    .add 53 (.ein [(7, [0, 1]), (75, [0, 2, 3, 4])] [2, 4, 3, 1]) (-1) 4,
    -- 655: del x10
    .del 75,
    -- 656: x11 = np.zeros((nocc, nocc, nvir, nvir), dtype=types[float])
    .zeros 77 [0, 0, 1, 1],
    -- 657: x11 += einsum("ia,jbca->ijbc", t1, v.ovvv)
    .add 77 (.ein [(7, [0, 1]), (9, [2, 3, 4, 1])] [0, 2, 3, 4]) 1 1,
    -- 658: x12 = np.zeros((nocc, nocc, nvir, nvir), dtype=types[float])
    .zeros 78 [0, 0, 1, 1],
    -- 659: x12 += einsum("ijab->jiab", x11) * -0.5
    .add 78 (.ein [(77, [0, 1, 2, 3])] [1, 0, 2, 3]) (-1) 2,
    -- 660: x19 = np.zeros((nocc, nocc, nvir, nvir), dtype=types[float])
    .zeros 79 [0, 0, 1, 1],
    -- 661: x19 -= einsum("ijab->jiab", x11)
    .add 79 (.ein [(77, [0, 1, 2, 3])] [1, 0, 2, 3]) (-1) 1,
    -- 662: x102 = np.zeros((nocc, nocc, nvir, nvir), dtype=types[float])
    .zeros 80 [0, 0, 1, 1],
    -- 663: x102 += einsum("ijab->ijab", x11)
    .add 80 (.ein [(77, [0, 1, 2, 3])] [0, 1, 2, 3]) 1 1,
    -- 664: del x11
    .del 77,
    -- 665: x12 += einsum("iajb->ijab", v.ovov)
    .add 78 (.ein [(18, [0, 1, 2, 3])] [0, 2, 1, 3]) 1 1,
    -- 666: x13 += einsum("ia,jkba->jikb", t1, x12) * -1
    .add 53 (.ein [(7, [0, 1]), (78, [2, 3, 4, 1])] [2, 0, 3, 4]) (-1) 1,
    -- 667: del x12
    .del 78,
    -- 668: x13 += einsum("iajk->ikja", v.ovoo) * -0.5
    .add 53 (.ein [(19, [0, 1, 2, 3])] [0, 3, 2, 1]) (-1) 2,
    -- 669: x13 += einsum("ijab,kcab->kjic", t2, v.ovvv) * -0.25
    .add 53 (.ein [(5, [0, 1, 2, 3]), (9, [4, 5, 2, 3])] [4, 1, 0, 5]) (-1) 4,
    -- 670: l1new += einsum("abij,kija->bk", l2, x13)
    .add 37 (.ein [(4, [0, 1, 2, 3]), (53, [4, 2, 3, 0])] [1, 4]) 1 1,
    -- 671: del x13
    .del 53,
    -- 672: x14 = np.zeros((nbos, nbos, nocc, nocc), dtype=types[float])
    .zeros 81 [2, 2, 0, 0],
    -- 673: x14 += einsum("ia,wxaj->wxji", t1, lu12)
    .add 81 (.ein [(7, [0, 1]), (20, [2, 3, 1, 4])] [2, 3, 4, 0]) 1 1,
    -- 674: x16 += einsum("wxia,wxjk->jkia", u12, x14) * -1
    .add 40 (.ein [(13, [0, 1, 2, 3]), (81, [0, 1, 4, 5])] [4, 5, 2, 3]) (-1) 1,
    -- 675: x46 = np.zeros((nocc, nvir), dtype=types[float])
    .zeros 82 [0, 1],
    -- 676: x46 += einsum("wxia,wxij->ja", u12, x14)
    .add 82 (.ein [(13, [0, 1, 2, 3]), (81, [0, 1, 2, 4])] [4, 3]) 1 1,
    -- 677: x56 += einsum("ia->ia", x46) * 0.5
    .add 43 (.ein [(82, [0, 1])] [0, 1]) 1 2,
    -- 678: x149 += einsum("ia->ia", x46)
    .add 44 (.ein [(82, [0, 1])] [0, 1]) 1 1,
    -- 679: del x46
    .del 82,
    -- 680: x155 = np.zeros((nbos, nocc, nvir), dtype=types[float])
    .zeros 83 [2, 0, 1],
    -- 681: x155 += einsum("wia,xwij->xja", u11, x14)
    .add 83 (.ein [(14, [0, 1, 2]), (81, [3, 0, 1, 4])] [3, 4, 2]) 1 1,
    -- 682: x156 = np.zeros((nbos, nbos), dtype=types[float])
    .zeros 84 [2, 2],
    -- 683: x156 += einsum("wia,xia->wx", g.bov, x155)
    .add 84 (.ein [(2, [0, 1, 2]), (83, [3, 1, 2])] [0, 3]) 1 1,
    -- 684: del x155
    .del 83,
    -- 685: x162 = np.zeros((nbos, nbos), dtype=types[float])
    .zeros 85 [2, 2],
    -- 686: x162 -= einsum("wx->wx", x156)
    .add 85 (.ein [(84, [0, 1])] [0, 1]) (-1) 1,
    -- 687: del x156
    .del 84,
    -- 688: lu12new += einsum("ijka,wxkj->xwai", v.ooov, x14)
    .add 73 (.ein [(6, [0, 1, 2, 3]), (81, [4, 5, 2, 1])] [5, 4, 3, 0]) 1 1,
    -- 689: lu12new -= einsum("wxij,ikja->xwak", x14, x3)
    .add 73 (.ein [(81, [0, 1, 2, 3]), (45, [2, 4, 3, 5])] [1, 0, 5, 4]) (-1) 1,
    -- 690: del x3
    .del 45,
    -- 691: x16 += einsum("ai,jkba->ikjb", l1, t2) * -1
    .add 40 (.ein [(10, [0, 1]), (5, [2, 3, 4, 0])] [1, 3, 2, 4]) (-1) 1,
    -- 692: l1new += einsum("ijab,kija->bk", v.oovv, x16) * -0.5
    .add 37 (.ein [(8, [0, 1, 2, 3]), (40, [4, 0, 1, 2])] [3, 4]) (-1) 2,
    -- 693: del x16
    .del 40,
    -- 694: x17 = np.zeros((nocc, nocc, nvir, nvir), dtype=types[float])
    .zeros 86 [0, 0, 1, 1],
    -- 695: x17 += einsum("wxai,wxjb->ijab", lu12, u12)
    .add 86 (.ein [(20, [0, 1, 2, 3]), (13, [0, 1, 4, 5])] [3, 4, 2, 5]) 1 1,
    -- 696: x17 += einsum("abij,kicb->jkac", l2, t2) * -2
    .add 86 (.ein [(4, [0, 1, 2, 3]), (5, [4, 2, 5, 1])] [3, 4, 0, 5]) (-2) 1,
    -- 697: l1new += einsum("iabc,jiab->cj", v.ovvv, x17) * 0.5
    .add 37 (.ein [(9, [0, 1, 2, 3]), (86, [4, 0, 1, 2])] [3, 4]) 1 2,
    -- 698: del x17
    .del 86,
    -- 699: x18 = np.zeros((nocc, nvir, nvir, nvir), dtype=types[float])
    .zeros 87 [0, 1, 1, 1],
    -- 700: x18 += einsum("abic->ibac", v.vvov) * -1
    .add 87 (.ein [(21, [0, 1, 2, 3])] [2, 1, 0, 3]) (-1) 1,
    -- 701: x18 += einsum("ia,bcda->icbd", t1, v.vvvv)
    .add 87 (.ein [(7, [0, 1]), (22, [2, 3, 4, 1])] [0, 3, 2, 4]) 1 1,
    -- 702: l1new += einsum("abij,iabc->cj", l2, x18) * 0.5
    .add 37 (.ein [(4, [0, 1, 2, 3]), (87, [2, 0, 1, 4])] [4, 3]) 1 2,
    -- 703: del x18
    .del 87,
    -- 704: x19 += einsum("iajb->ijab", v.ovov)
    .add 79 (.ein [(18, [0, 1, 2, 3])] [0, 2, 1, 3]) 1 1,
    -- 705: l1new += einsum("ijka,kiab->bj", x1, x19)
    .add 37 (.ein [(38, [0, 1, 2, 3]), (79, [2, 0, 3, 4])] [4, 1]) 1 1,
    -- 706: lu12new -= einsum("wxai,jiab->xwbj", lu12, x19)
    .add 73 (.ein [(20, [0, 1, 2, 3]), (79, [4, 3, 2, 5])] [1, 0, 5, 4]) (-1) 1,
    -- 707: del x19
    .del 79,
    -- 708: x20 += einsum("ijka->jika", v.ooov) * -1
    .add 48 (.ein [(6, [0, 1, 2, 3])] [1, 0, 2, 3]) (-1) 1,
    -- 709: x24 += einsum("wxia,ijka->xwjk", u12, x20) * -0.5
    .add 66 (.ein [(13, [0, 1, 2, 3]), (48, [2, 4, 5, 3])] [1, 0, 4, 5]) (-1) 2,
    -- 710: del x20
    .del 48,
    -- 711: x21 = np.zeros((nbos, nocc, nvir), dtype=types[float])
    .zeros 88 [2, 0, 1],
    -- 712: x21 += einsum("wx,wia->xia", s2, g.bov)
    .add 88 (.ein [(23, [0, 1]), (2, [0, 2, 3])] [1, 2, 3]) 1 1,
    -- 713: x23 = np.zeros((nbos, nocc, nvir), dtype=types[float])
    .zeros 89 [2, 0, 1],
    -- 714: x23 += einsum("wia->wia", x21)
    .add 89 (.ein [(88, [0, 1, 2])] [0, 1, 2]) 1 1,
    -- 715: del x21
    .del 88,
    -- 716: x22 = np.zeros((nbos, nocc, nvir), dtype=types[float])
    .zeros 90 [2, 0, 1],
    -- 717: x22 += einsum("wia,jiba->wjb", u11, v.oovv)
    .add 90 (.ein [(14, [0, 1, 2]), (8, [3, 1, 4, 2])] [0, 3, 4]) 1 1,
    -- 718: x23 += einsum("wia->wia", x22)
    .add 89 (.ein [(90, [0, 1, 2])] [0, 1, 2]) 1 1,
    -- 719: x65 = np.zeros((nbos, nocc, nvir), dtype=types[float])
    .zeros 91 [2, 0, 1],
    -- 720: x65 += einsum("wia->wia", x22)
    .add 91 (.ein [(90, [0, 1, 2])] [0, 1, 2]) 1 1,
    -- 721: x71 = np.zeros((nbos, nocc, nvir), dtype=types[float])
    .zeros 92 [2, 0, 1],
    -- 722: x71 += einsum("wia->wia", x22) * 0.5
    .add 92 (.ein [(90, [0, 1, 2])] [0, 1, 2]) 1 2,
    -- 723: x100 = np.zeros((nocc, nocc, nvir, nvir), dtype=types[float])
    .zeros 93 [0, 0, 1, 1],
    -- 724: x100 += einsum("wai,wjb->ijab", lu11, x22)
    .add 93 (.ein [(24, [0, 1, 2]), (90, [0, 3, 4])] [2, 3, 1, 4]) 1 1,
    -- 725: x107 += einsum("ijab->ijab", x100)
    .add 63 (.ein [(93, [0, 1, 2, 3])] [0, 1, 2, 3]) 1 1,
    -- 726: del x100
    .del 93,
    -- 727: x136 = np.zeros((nbos, nocc, nvir), dtype=types[float])
    .zeros 94 [2, 0, 1],
    -- 728: x136 += einsum("wia->wia", x22)
    .add 94 (.ein [(90, [0, 1, 2])] [0, 1, 2]) 1 1,
    -- 729: del x22
    .del 90,
    -- 730: x23 += einsum("wia->wia", gc.bov)
    .add 89 (.ein [(31, [0, 1, 2])] [0, 1, 2]) 1 1,
    -- 731: x24 += einsum("wia,xja->wxji", u11, x23)
    .add 66 (.ein [(14, [0, 1, 2]), (89, [3, 4, 2])] [0, 3, 4, 1]) 1 1,
    -- 732: l1new += einsum("wxai,wxji->aj", lu12, x24) * -1
    .add 37 (.ein [(20, [0, 1, 2, 3]), (66, [0, 1, 4, 3])] [2, 4]) (-1) 1,
    -- 733: del x24
    .del 66,
    -- 734: x141 = np.zeros((nbos, nocc, nvir), dtype=types[float])
    .zeros 95 [2, 0, 1],
    -- 735: x141 += einsum("wia,ijab->wjb", x23, t2)
    .add 95 (.ein [(89, [0, 1, 2]), (5, [1, 3, 2, 4])] [0, 3, 4]) 1 1,
    -- 736: del x23
    .del 89,
    -- 737: x25 = np.zeros((nocc, nvir), dtype=types[float])
    .zeros 96 [0, 1],
    -- 738: x25 += einsum("w,wai->ia", s1, g.bvo)
    .add 96 (.ein [(11, [0]), (1, [0, 1, 2])] [2, 1]) 1 1,
    -- 739: x42 += einsum("ia->ia", x25) * -2
    .add 54 (.ein [(96, [0, 1])] [0, 1]) (-2) 1,
    -- 740: x148 += einsum("ia->ia", x25) * -1
    .add 56 (.ein [(96, [0, 1])] [0, 1]) (-1) 1,
    -- 741: del x25
    .del 96,
    -- 742: x26 = np.zeros((nocc, nvir), dtype=types[float])
    .zeros 97 [0, 1],
    -- 743: x26 += einsum("wab,wib->ia", g.bvv, u11)
    .add 97 (.ein [(3, [0, 1, 2]), (14, [0, 3, 2])] [3, 1]) 1 1,
    -- 744: x42 += einsum("ia->ia", x26) * -2
    .add 54 (.ein [(97, [0, 1])] [0, 1]) (-2) 1,
    -- 745: x148 += einsum("ia->ia", x26) * -1
    .add 56 (.ein [(97, [0, 1])] [0, 1]) (-1) 1,
    -- 746: del x26
    .del 97,
    -- 747: x27 = np.zeros((nocc, nvir), dtype=types[float])
    .zeros 98 [0, 1],
    -- 748: x27 += einsum("ia,ibja->jb", t1, v.ovov)
    .add 98 (.ein [(7, [0, 1]), (18, [0, 2, 3, 1])] [3, 2]) 1 1,
    -- 749: x42 += einsum("ia->ia", x27) * 2
    .add 54 (.ein [(98, [0, 1])] [0, 1]) 2 1,
    -- 750: x148 += einsum("ia->ia", x27)
    .add 56 (.ein [(98, [0, 1])] [0, 1]) 1 1,
    -- 751: del x27
    .del 98,
    -- 752: x28 = np.zeros((nocc, nvir), dtype=types[float])
    .zeros 99 [0, 1],
    -- 753: x28 -= einsum("ijab,icab->jc", t2, v.ovvv)
    .add 99 (.ein [(5, [0, 1, 2, 3]), (9, [0, 4, 2, 3])] [1, 4]) (-1) 1,
    -- 754: x42 += einsum("ia->ia", x28)
    .add 54 (.ein [(99, [0, 1])] [0, 1]) 1 1,
    -- 755: x148 += einsum("ia->ia", x28) * 0.5
    .add 56 (.ein [(99, [0, 1])] [0, 1]) 1 2,
    -- 756: del x28
    .del 99,
    -- 757: x29 = np.zeros((nbos, nocc, nocc), dtype=types[float])
    .zeros 100 [2, 0, 0],
    -- 758: x29 += einsum("ia,wja->wji", t1, g.bov)
    .add 100 (.ein [(7, [0, 1]), (2, [2, 3, 1])] [2, 3, 0]) 1 1,
    -- 759: x30 = np.zeros((nbos, nocc, nocc), dtype=types[float])
    .zeros 101 [2, 0, 0],
    -- 760: x30 += einsum("wij->wij", x29)
    .add 101 (.ein [(100, [0, 1, 2])] [0, 1, 2]) 1 1,
    -- 761: x66 = np.zeros((nbos, nocc, nocc), dtype=types[float])
    .zeros 102 [2, 0, 0],
    -- 762: x66 += einsum("wij->wij", x29)
    .add 102 (.ein [(100, [0, 1, 2])] [0, 1, 2]) 1 1,
    -- 763: del x29
    .del 100,
    -- 764: x30 += einsum("wij->wij", g.boo)
    .add 101 (.ein [(0, [0, 1, 2])] [0, 1, 2]) 1 1,
    -- 765: x42 += einsum("wia,wij->ja", u11, x30) * 2
    .add 54 (.ein [(14, [0, 1, 2]), (101, [0, 1, 3])] [3, 2]) 2 1,
    -- 766: x137 += einsum("wx,wij->xij", s2, x30)
    .add 70 (.ein [(23, [0, 1]), (101, [0, 2, 3])] [1, 2, 3]) 1 1,
    -- 767: x141 += einsum("wij,wxia->xja", x30, u12) * -1
    .add 95 (.ein [(101, [0, 1, 2]), (13, [0, 3, 1, 4])] [3, 2, 4]) (-1) 1,
    -- 768: x144 = np.zeros((nocc, nvir), dtype=types[float])
    .zeros 103 [0, 1],
    -- 769: x144 += einsum("wia,wij->ja", u11, x30)
    .add 103 (.ein [(14, [0, 1, 2]), (101, [0, 1, 3])] [3, 2]) 1 1,
    -- 770: del x30
    .del 101,
    -- 771: x148 += einsum("ia->ia", x144)
    .add 56 (.ein [(103, [0, 1])] [0, 1]) 1 1,
    -- 772: del x144
    .del 103,
    -- 773: x31 = np.zeros((nocc, nocc), dtype=types[float])
    .zeros 104 [0, 0],
    -- 774: x31 += einsum("w,wij->ij", s1, g.boo)
    .add 104 (.ein [(11, [0]), (0, [0, 1, 2])] [1, 2]) 1 1,
    -- 775: x36 += einsum("ij->ij", x31)
    .add 68 (.ein [(104, [0, 1])] [0, 1]) 1 1,
    -- 776: x110 = np.zeros((nocc, nocc), dtype=types[float])
    .zeros 105 [0, 0],
    -- 777: x110 += einsum("ij->ij", x31)
    .add 105 (.ein [(104, [0, 1])] [0, 1]) 1 1,
    -- 778: del x31
    .del 104,
    -- 779: x32 = np.zeros((nocc, nocc), dtype=types[float])
    .zeros 106 [0, 0],
    -- 780: x32 += einsum("wia,wja->ij", g.bov, u11)
    .add 106 (.ein [(2, [0, 1, 2]), (14, [0, 3, 2])] [1, 3]) 1 1,
    -- 781: x36 += einsum("ij->ij", x32)
    .add 68 (.ein [(106, [0, 1])] [0, 1]) 1 1,
    -- 782: x110 += einsum("ij->ij", x32)
    .add 105 (.ein [(106, [0, 1])] [0, 1]) 1 1,
    -- 783: del x32
    .del 106,
    -- 784: x33 = np.zeros((nocc, nocc), dtype=types[float])
    .zeros 107 [0, 0],
    -- 785: x33 += einsum("ia,jika->jk", t1, v.ooov)
    .add 107 (.ein [(7, [0, 1]), (6, [2, 0, 3, 1])] [2, 3]) 1 1,
    -- 786: x36 += einsum("ij->ij", x33)
    .add 68 (.ein [(107, [0, 1])] [0, 1]) 1 1,
    -- 787: x115 += einsum("ij->ij", x33)
    .add 65 (.ein [(107, [0, 1])] [0, 1]) 1 1,
    -- 788: del x33
    .del 107,
    -- 789: x116 = np.zeros((nocc, nocc, nvir, nvir), dtype=types[float])
    .zeros 108 [0, 0, 1, 1],
    -- 790: x116 += einsum("ij,abjk->kiab", x115, l2)
    .add 108 (.ein [(65, [0, 1]), (4, [2, 3, 1, 4])] [4, 0, 2, 3]) 1 1,
    -- 791: del x115
    .del 65,
    -- 792: x117 = np.zeros((nocc, nocc, nvir, nvir), dtype=types[float])
    .zeros 109 [0, 0, 1, 1],
    -- 793: x117 -= einsum("ijab->ijba", x116)
    .add 109 (.ein [(108, [0, 1, 2, 3])] [0, 1, 3, 2]) (-1) 1,
    -- 794: del x116
    .del 108,
    -- 795: x34 = np.zeros((nocc, nocc), dtype=types[float])
    .zeros 110 [0, 0],
    -- 796: x34 += einsum("ijab,ikab->jk", t2, v.oovv)
    .add 110 (.ein [(5, [0, 1, 2, 3]), (8, [0, 4, 2, 3])] [1, 4]) 1 1,
    -- 797: x36 += einsum("ij->ji", x34) * 0.5
    .add 68 (.ein [(110, [0, 1])] [1, 0]) 1 2,
    -- 798: x121 = np.zeros((nocc, nocc, nvir, nvir), dtype=types[float])
    .zeros 111 [0, 0, 1, 1],
    -- 799: x121 += einsum("ij,abki->kjab", x34, l2)
    .add 111 (.ein [(110, [0, 1]), (4, [2, 3, 4, 0])] [4, 1, 2, 3]) 1 1,
    -- 800: del x34
    .del 110,
    -- 801: x124 = np.zeros((nocc, nocc, nvir, nvir), dtype=types[float])
    .zeros 112 [0, 0, 1, 1],
    -- 802: x124 += einsum("ijab->ijba", x121) * -0.5
    .add 112 (.ein [(111, [0, 1, 2, 3])] [0, 1, 3, 2]) (-1) 2,
    -- 803: del x121
    .del 111,
    -- 804: x36 += einsum("ij->ij", f.oo)
    .add 68 (.ein [(25, [0, 1])] [0, 1]) 1 1,
    -- 805: x42 += einsum("ia,ij->ja", t1, x36) * 2
    .add 54 (.ein [(7, [0, 1]), (68, [0, 2])] [2, 1]) 2 1,
    -- 806: x141 += einsum("ij,wia->wja", x36, u11) * -1
    .add 95 (.ein [(68, [0, 1]), (14, [2, 0, 3])] [2, 1, 3]) (-1) 1,
    -- 807: x145 = np.zeros((nocc, nvir), dtype=types[float])
    .zeros 113 [0, 1],
    -- 808: x145 += einsum("ia,ij->ja", t1, x36)
    .add 113 (.ein [(7, [0, 1]), (68, [0, 2])] [2, 1]) 1 1,
    -- 809: x148 += einsum("ia->ia", x145)
    .add 56 (.ein [(113, [0, 1])] [0, 1]) 1 1,
    -- 810: del x145
    .del 113,
    -- 811: l1new += einsum("ai,ji->aj", l1, x36) * -1
    .add 37 (.ein [(10, [0, 1]), (68, [2, 1])] [0, 2]) (-1) 1,
    -- 812: lu12new += einsum("ij,wxaj->xwai", x36, lu12) * -1
    .add 73 (.ein [(68, [0, 1]), (20, [2, 3, 4, 1])] [3, 2, 4, 0]) (-1) 1,
    -- 813: del x36
    .del 68,
    -- 814: x37 = np.zeros((nvir, nvir), dtype=types[float])
    .zeros 114 [1, 1],
    -- 815: x37 += einsum("w,wab->ab", s1, g.bvv)
    .add 114 (.ein [(11, [0]), (3, [0, 1, 2])] [1, 2]) 1 1,
    -- 816: x39 = np.zeros((nvir, nvir), dtype=types[float])
    .zeros 115 [1, 1],
    -- 817: x39 += einsum("ab->ab", x37)
    .add 115 (.ein [(114, [0, 1])] [0, 1]) 1 1,
    -- 818: x80 = np.zeros((nvir, nvir), dtype=types[float])
    .zeros 116 [1, 1],
    -- 819: x80 += einsum("ab->ab", x37)
    .add 116 (.ein [(114, [0, 1])] [0, 1]) 1 1,
    -- 820: x94 = np.zeros((nvir, nvir), dtype=types[float])
    .zeros 117 [1, 1],
    -- 821: x94 += einsum("ab->ab", x37)
    .add 117 (.ein [(114, [0, 1])] [0, 1]) 1 1,
    -- 822: x135 = np.zeros((nvir, nvir), dtype=types[float])
    .zeros 118 [1, 1],
    -- 823: x135 += einsum("ab->ab", x37) * -1
    .add 118 (.ein [(114, [0, 1])] [0, 1]) (-1) 1,
    -- 824: del x37
    .del 114,
    -- 825: x38 = np.zeros((nvir, nvir), dtype=types[float])
    .zeros 119 [1, 1],
    -- 826: x38 += einsum("ia,ibca->bc", t1, v.ovvv)
    .add 119 (.ein [(7, [0, 1]), (9, [0, 2, 3, 1])] [2, 3]) 1 1,
    -- 827: x39 += einsum("ab->ab", x38) * -1
    .add 115 (.ein [(119, [0, 1])] [0, 1]) (-1) 1,
    -- 828: x80 -= einsum("ab->ab", x38)
    .add 116 (.ein [(119, [0, 1])] [0, 1]) (-1) 1,
    -- 829: x91 = np.zeros((nocc, nocc, nvir, nvir), dtype=types[float])
    .zeros 120 [0, 0, 1, 1],
    -- 830: x91 -= einsum("ab,caij->jicb", x38, l2)
    .add 120 (.ein [(119, [0, 1]), (4, [2, 0, 3, 4])] [4, 3, 2, 1]) (-1) 1,
    -- 831: x98 -= einsum("ijab->ijab", x91)
    .add 50 (.ein [(120, [0, 1, 2, 3])] [0, 1, 2, 3]) (-1) 1,
    -- 832: del x91
    .del 120,
    -- 833: x135 += einsum("ab->ab", x38)
    .add 118 (.ein [(119, [0, 1])] [0, 1]) 1 1,
    -- 834: del x38
    .del 119,
    -- 835: x39 += einsum("ab->ab", f.vv)
    .add 115 (.ein [(26, [0, 1])] [0, 1]) 1 1,
    -- 836: x42 += einsum("ia,ba->ib", t1, x39) * -2
    .add 54 (.ein [(7, [0, 1]), (115, [2, 1])] [0, 2]) (-2) 1,
    -- 837: x146 = np.zeros((nocc, nvir), dtype=types[float])
    .zeros 121 [0, 1],
    -- 838: x146 += einsum("ia,ba->ib", t1, x39)
    .add 121 (.ein [(7, [0, 1]), (115, [2, 1])] [0, 2]) 1 1,
    -- 839: del x39
    .del 115,
    -- 840: x148 += einsum("ia->ia", x146) * -1
    .add 56 (.ein [(121, [0, 1])] [0, 1]) (-1) 1,
    -- 841: del x146
    .del 121,
    -- 842: x40 = np.zeros((nbos), dtype=types[float])
    .zeros 122 [2],
    -- 843: x40 += einsum("ia,wia->w", t1, g.bov)
    .add 122 (.ein [(7, [0, 1]), (2, [2, 0, 1])] [2]) 1 1,
    -- 844: x41 = np.zeros((nbos), dtype=types[float])
    .zeros 123 [2],
    -- 845: x41 += einsum("w->w", x40)
    .add 123 (.ein [(122, [0])] [0]) 1 1,
    -- 846: x85 = np.zeros((nbos), dtype=types[float])
    .zeros 124 [2],
    -- 847: x85 += einsum("w->w", x40)
    .add 124 (.ein [(122, [0])] [0]) 1 1,
    -- 848: del x40
    .del 122,
    -- 849: x41 += einsum("w->w", G)
    .add 123 (.ein [(27, [0])] [0]) 1 1,
    -- 850: x42 += einsum("w,wia->ia", x41, u11) * -2
    .add 54 (.ein [(123, [0]), (14, [0, 1, 2])] [1, 2]) (-2) 1,
    -- 851: x141 += einsum("w,wxia->xia", x41, u12)
    .add 95 (.ein [(123, [0]), (13, [0, 1, 2, 3])] [1, 2, 3]) 1 1,
    -- 852: x147 = np.zeros((nocc, nvir), dtype=types[float])
    .zeros 125 [0, 1],
    -- 853: x147 += einsum("w,wia->ia", x41, u11)
    .add 125 (.ein [(123, [0]), (14, [0, 1, 2])] [1, 2]) 1 1,
    -- 854: del x41
    .del 123,
    -- 855: x148 += einsum("ia->ia", x147) * -1
    .add 56 (.ein [(125, [0, 1])] [0, 1]) (-1) 1,
    -- 856: del x147
    .del 125,
    -- 857: x42 += einsum("ai->ia", f.vo) * -2
    .add 54 (.ein [(28, [0, 1])] [1, 0]) (-2) 1,
    -- 858: l1new += einsum("ia,abij->bj", x42, l2) * -0.5
    .add 37 (.ein [(54, [0, 1]), (4, [1, 2, 0, 3])] [2, 3]) (-1) 2,
    -- 859: del x42
    .del 54,
    -- 860: x43 = np.zeros((nocc, nvir), dtype=types[float])
    .zeros 126 [0, 1],
    -- 861: x43 += einsum("w,wia->ia", ls1, u11)
    .add 126 (.ein [(15, [0]), (14, [0, 1, 2])] [1, 2]) 1 1,
    -- 862: x56 += einsum("ia->ia", x43) * -1
    .add 43 (.ein [(126, [0, 1])] [0, 1]) (-1) 1,
    -- 863: x149 += einsum("ia->ia", x43) * -2
    .add 44 (.ein [(126, [0, 1])] [0, 1]) (-2) 1,
    -- 864: del x43
    .del 126,
    -- 865: x44 = np.zeros((nocc, nvir), dtype=types[float])
    .zeros 127 [0, 1],
    -- 866: x44 += einsum("wx,wxia->ia", ls2, u12)
    .add 127 (.ein [(16, [0, 1]), (13, [0, 1, 2, 3])] [2, 3]) 1 1,
    -- 867: x56 += einsum("ia->ia", x44) * -0.5
    .add 43 (.ein [(127, [0, 1])] [0, 1]) (-1) 2,
    -- 868: x149 += einsum("ia->ia", x44) * -1
    .add 44 (.ein [(127, [0, 1])] [0, 1]) (-1) 1,
    -- 869: del x44
    .del 127,
    -- 870: x45 = np.zeros((nocc, nvir), dtype=types[float])
    .zeros 128 [0, 1],
    -- 871: x45 += einsum("ai,jiba->jb", l1, t2)
    .add 128 (.ein [(10, [0, 1]), (5, [2, 1, 3, 0])] [2, 3]) 1 1,
    -- 872: x56 += einsum("ia->ia", x45) * -1
    .add 43 (.ein [(128, [0, 1])] [0, 1]) (-1) 1,
    -- 873: x149 += einsum("ia->ia", x45) * -2
    .add 44 (.ein [(128, [0, 1])] [0, 1]) (-2) 1,
    -- 874: del x45
    .del 128,
    -- 875: x48 = np.zeros((nbos, nocc, nocc), dtype=types[float])
    .zeros 129 [2, 0, 0],
    -- 876: x48 += einsum("ia,waj->wji", t1, lu11)
    .add 129 (.ein [(7, [0, 1]), (24, [2, 1, 3])] [2, 3, 0]) 1 1,
    -- 877: x50 = np.zeros((nbos, nocc, nocc), dtype=types[float])
    .zeros 130 [2, 0, 0],
    -- 878: x50 += einsum("wij->wij", x48)
    .add 130 (.ein [(129, [0, 1, 2])] [0, 1, 2]) 1 1,
    -- 879: x69 = np.zeros((nbos, nocc, nocc), dtype=types[float])
    .zeros 131 [2, 0, 0],
    -- 880: x69 += einsum("wij->wij", x48)
    .add 131 (.ein [(129, [0, 1, 2])] [0, 1, 2]) 1 1,
    -- 881: x49 = np.zeros((nbos, nocc, nocc), dtype=types[float])
    .zeros 132 [2, 0, 0],
    -- 882: x49 += einsum("wia,wxaj->xji", u11, lu12)
    .add 132 (.ein [(14, [0, 1, 2]), (20, [0, 3, 2, 4])] [3, 4, 1]) 1 1,
    -- 883: x50 += einsum("wij->wij", x49)
    .add 130 (.ein [(132, [0, 1, 2])] [0, 1, 2]) 1 1,
    -- 884: x56 += einsum("wia,wij->ja", u11, x50)
    .add 43 (.ein [(14, [0, 1, 2]), (130, [0, 1, 3])] [3, 2]) 1 1,
    -- 885: x149 += einsum("wia,wij->ja", u11, x50) * 2
    .add 44 (.ein [(14, [0, 1, 2]), (130, [0, 1, 3])] [3, 2]) 2 1,
    -- 886: del x50
    .del 130,
    -- 887: x69 += einsum("wij->wij", x49)
    .add 131 (.ein [(132, [0, 1, 2])] [0, 1, 2]) 1 1,
    -- 888: x70 = np.zeros((nbos, nocc, nocc), dtype=types[float])
    .zeros 133 [2, 0, 0],
    -- 889: x70 += einsum("wx,wij->xij", s2, x69)
    .add 133 (.ein [(23, [0, 1]), (131, [0, 2, 3])] [1, 2, 3]) 1 1,
    -- 890: x170 = np.zeros((nbos, nbos, nocc, nvir), dtype=types[float])
    .zeros 134 [2, 2, 0, 1],
    -- 891: x170 += einsum("wia,xji->wxja", g.bov, x69)
    .add 134 (.ein [(2, [0, 1, 2]), (131, [3, 4, 1])] [0, 3, 4, 2]) 1 1,
    -- 892: x171 = np.zeros((nbos, nbos, nocc, nvir), dtype=types[float])
    .zeros 135 [2, 2, 0, 1],
    -- 893: x171 += einsum("wxia->wxia", x170)
    .add 135 (.ein [(134, [0, 1, 2, 3])] [0, 1, 2, 3]) 1 1,
    -- 894: del x170
    .del 134,
    -- 895: x51 = np.zeros((nocc, nocc), dtype=types[float])
    .zeros 136 [0, 0],
    -- 896: x51 += einsum("ai,ja->ij", l1, t1)
    .add 136 (.ein [(10, [0, 1]), (7, [2, 0])] [1, 2]) 1 1,
    -- 897: x55 = np.zeros((nocc, nocc), dtype=types[float])
    .zeros 137 [0, 0],
    -- 898: x55 += einsum("ij->ij", x51) * 2
    .add 137 (.ein [(136, [0, 1])] [0, 1]) 2 1,
    -- 899: x79 = np.zeros((nocc, nocc), dtype=types[float])
    .zeros 138 [0, 0],
    -- 900: x79 += einsum("ij->ij", x51)
    .add 138 (.ein [(136, [0, 1])] [0, 1]) 1 1,
    -- 901: x112 = np.zeros((nocc, nocc), dtype=types[float])
    .zeros 139 [0, 0],
    -- 902: x112 += einsum("ij->ij", x51)
    .add 139 (.ein [(136, [0, 1])] [0, 1]) 1 1,
    -- 903: del x51
    .del 136,
    -- 904: x52 = np.zeros((nocc, nocc), dtype=types[float])
    .zeros 140 [0, 0],
    -- 905: x52 += einsum("wai,wja->ij", lu11, u11)
    .add 140 (.ein [(24, [0, 1, 2]), (14, [0, 3, 1])] [2, 3]) 1 1,
    -- 906: x55 += einsum("ij->ij", x52) * 2
    .add 137 (.ein [(140, [0, 1])] [0, 1]) 2 1,
    -- 907: x79 += einsum("ij->ij", x52)
    .add 138 (.ein [(140, [0, 1])] [0, 1]) 1 1,
    -- 908: x112 += einsum("ij->ij", x52)
    .add 139 (.ein [(140, [0, 1])] [0, 1]) 1 1,
    -- 909: del x52
    .del 140,
    -- 910: x113 = np.zeros((nocc, nocc, nvir, nvir), dtype=types[float])
    .zeros 141 [0, 0, 1, 1],
    -- 911: x113 += einsum("ij,jkab->kiab", x112, v.oovv)
    .add 141 (.ein [(139, [0, 1]), (8, [1, 2, 3, 4])] [2, 0, 3, 4]) 1 1,
    -- 912: del x112
    .del 139,
    -- 913: x117 += einsum("ijab->jiba", x113)
    .add 109 (.ein [(141, [0, 1, 2, 3])] [1, 0, 3, 2]) 1 1,
    -- 914: del x113
    .del 141,
    -- 915: x53 = np.zeros((nocc, nocc), dtype=types[float])
    .zeros 142 [0, 0],
    -- 916: x53 += einsum("wxai,wxja->ij", lu12, u12)
    .add 142 (.ein [(20, [0, 1, 2, 3]), (13, [0, 1, 4, 2])] [3, 4]) 1 1,
    -- 917: x55 += einsum("ij->ij", x53)
    .add 137 (.ein [(142, [0, 1])] [0, 1]) 1 1,
    -- 918: x79 += einsum("ij->ij", x53) * 0.5
    .add 138 (.ein [(142, [0, 1])] [0, 1]) 1 2,
    -- 919: x122 = np.zeros((nocc, nocc), dtype=types[float])
    .zeros 143 [0, 0],
    -- 920: x122 += einsum("ij->ij", x53)
    .add 143 (.ein [(142, [0, 1])] [0, 1]) 1 1,
    -- 921: del x53
    .del 142,
    -- 922: x54 = np.zeros((nocc, nocc), dtype=types[float])
    .zeros 144 [0, 0],
    -- 923: x54 += einsum("abij,ikab->jk", l2, t2)
    .add 144 (.ein [(4, [0, 1, 2, 3]), (5, [2, 4, 0, 1])] [3, 4]) 1 1,
    -- 924: x55 += einsum("ij->ij", x54)
    .add 137 (.ein [(144, [0, 1])] [0, 1]) 1 1,
    -- 925: x56 += einsum("ia,ij->ja", t1, x55) * 0.5
    .add 43 (.ein [(7, [0, 1]), (137, [0, 2])] [2, 1]) 1 2,
    -- 926: x149 += einsum("ia,ij->ja", t1, x55)
    .add 44 (.ein [(7, [0, 1]), (137, [0, 2])] [2, 1]) 1 1,
    -- 927: l1new += einsum("ij,jkia->ak", x55, v.ooov) * -0.5
    .add 37 (.ein [(137, [0, 1]), (6, [1, 2, 0, 3])] [3, 2]) (-1) 2,
    -- 928: ls1new = np.zeros((nbos), dtype=types[float])
    .zeros 145 [2],
    -- 929: ls1new += einsum("ij,wji->w", x55, g.boo) * -0.5
    .add 145 (.ein [(137, [0, 1]), (0, [2, 1, 0])] [2]) (-1) 2,
    -- 930: del x55
    .del 137,
    -- 931: x79 += einsum("ij->ij", x54) * 0.5
    .add 138 (.ein [(144, [0, 1])] [0, 1]) 1 2,
    -- 932: x122 += einsum("ij->ij", x54)
    .add 143 (.ein [(144, [0, 1])] [0, 1]) 1 1,
    -- 933: del x54
    .del 144,
    -- 934: x123 = np.zeros((nocc, nocc, nvir, nvir), dtype=types[float])
    .zeros 146 [0, 0, 1, 1],
    -- 935: x123 += einsum("ij,jkab->kiab", x122, v.oovv) * 0.5
    .add 146 (.ein [(143, [0, 1]), (8, [1, 2, 3, 4])] [2, 0, 3, 4]) 1 2,
    -- 936: del x122
    .del 143,
    -- 937: x124 += einsum("ijab->jiba", x123) * -1
    .add 112 (.ein [(146, [0, 1, 2, 3])] [1, 0, 3, 2]) (-1) 1,
    -- 938: del x123
    .del 146,
    -- 939: l2new += einsum("ijab->abij", x124) * -1
    .add 41 (.ein [(112, [0, 1, 2, 3])] [2, 3, 0, 1]) (-1) 1,
    -- 940: l2new += einsum("ijab->abji", x124)
    .add 41 (.ein [(112, [0, 1, 2, 3])] [2, 3, 1, 0]) 1 1,
    -- 941: del x124
    .del 112,
    -- 942: x56 += einsum("ia->ia", t1) * -1
    .add 43 (.ein [(7, [0, 1])] [0, 1]) (-1) 1,
    -- 943: l1new += einsum("ia,ijab->bj", x56, v.oovv) * -1
    .add 37 (.ein [(43, [0, 1]), (8, [0, 2, 1, 3])] [3, 2]) (-1) 1,
    -- 944: del x56
    .del 43,
    -- 945: x57 = np.zeros((nvir, nvir), dtype=types[float])
    .zeros 147 [1, 1],
    -- 946: x57 += einsum("ai,ib->ab", l1, t1)
    .add 147 (.ein [(10, [0, 1]), (7, [1, 2])] [0, 2]) 1 1,
    -- 947: x61 = np.zeros((nvir, nvir), dtype=types[float])
    .zeros 148 [1, 1],
    -- 948: x61 += einsum("ab->ab", x57)
    .add 148 (.ein [(147, [0, 1])] [0, 1]) 1 1,
    -- 949: ls1new += einsum("ab,wab->w", x57, g.bvv)
    .add 145 (.ein [(147, [0, 1]), (3, [2, 0, 1])] [2]) 1 1,
    -- 950: del x57
    .del 147,
    -- 951: x58 = np.zeros((nvir, nvir), dtype=types[float])
    .zeros 149 [1, 1],
    -- 952: x58 += einsum("wai,wib->ab", lu11, u11)
    .add 149 (.ein [(24, [0, 1, 2]), (14, [0, 2, 3])] [1, 3]) 1 1,
    -- 953: x61 += einsum("ab->ab", x58)
    .add 148 (.ein [(149, [0, 1])] [0, 1]) 1 1,
    -- 954: x90 = np.zeros((nocc, nocc, nvir, nvir), dtype=types[float])
    .zeros 150 [0, 0, 1, 1],
    -- 955: x90 -= einsum("ab,ijcb->jiac", x58, v.oovv)
    .add 150 (.ein [(149, [0, 1]), (8, [2, 3, 4, 1])] [3, 2, 0, 4]) (-1) 1,
    -- 956: x98 += einsum("ijab->ijab", x90)
    .add 50 (.ein [(150, [0, 1, 2, 3])] [0, 1, 2, 3]) 1 1,
    -- 957: del x90
    .del 150,
    -- 958: x150 = np.zeros((nvir, nvir), dtype=types[float])
    .zeros 151 [1, 1],
    -- 959: x150 += einsum("ab->ab", x58) * 2
    .add 151 (.ein [(149, [0, 1])] [0, 1]) 2 1,
    -- 960: del x58
    .del 149,
    -- 961: x59 = np.zeros((nvir, nvir), dtype=types[float])
    .zeros 152 [1, 1],
    -- 962: x59 += einsum("wxai,wxib->ab", lu12, u12)
    .add 152 (.ein [(20, [0, 1, 2, 3]), (13, [0, 1, 3, 4])] [2, 4]) 1 1,
    -- 963: x61 += einsum("ab->ab", x59) * 0.5
    .add 148 (.ein [(152, [0, 1])] [0, 1]) 1 2,
    -- 964: x127 = np.zeros((nvir, nvir), dtype=types[float])
    .zeros 153 [1, 1],
    -- 965: x127 += einsum("ab->ab", x59)
    .add 153 (.ein [(152, [0, 1])] [0, 1]) 1 1,
    -- 966: x150 += einsum("ab->ab", x59)
    .add 151 (.ein [(152, [0, 1])] [0, 1]) 1 1,
    -- 967: del x59
    .del 152,
    -- 968: x60 = np.zeros((nvir, nvir), dtype=types[float])
    .zeros 154 [1, 1],
    -- 969: x60 -= einsum("abij,ijbc->ac", l2, t2)
    .add 154 (.ein [(4, [0, 1, 2, 3]), (5, [2, 3, 1, 4])] [0, 4]) (-1) 1,
    -- 970: x61 += einsum("ab->ab", x60) * 0.5
    .add 148 (.ein [(154, [0, 1])] [0, 1]) 1 2,
    -- 971: l1new += einsum("ab,iabc->ci", x61, v.ovvv) * -1
    .add 37 (.ein [(148, [0, 1]), (9, [2, 0, 1, 3])] [3, 2]) (-1) 1,
    -- 972: del x61
    .del 148,
    -- 973: x127 += einsum("ab->ab", x60)
    .add 153 (.ein [(154, [0, 1])] [0, 1]) 1 1,
    -- 974: x128 = np.zeros((nocc, nocc, nvir, nvir), dtype=types[float])
    .zeros 155 [0, 0, 1, 1],
    -- 975: x128 += einsum("ab,ijbc->ijca", x127, v.oovv) * 0.5
    .add 155 (.ein [(153, [0, 1]), (8, [2, 3, 1, 4])] [2, 3, 4, 0]) 1 2,
    -- 976: del x127
    .del 153,
    -- 977: x129 = np.zeros((nocc, nocc, nvir, nvir), dtype=types[float])
    .zeros 156 [0, 0, 1, 1],
    -- 978: x129 += einsum("ijab->jiba", x128) * -1
    .add 156 (.ein [(155, [0, 1, 2, 3])] [1, 0, 3, 2]) (-1) 1,
    -- 979: del x128
    .del 155,
    -- 980: x150 += einsum("ab->ab", x60)
    .add 151 (.ein [(154, [0, 1])] [0, 1]) 1 1,
    -- 981: del x60
    .del 154,
    -- 982: ls1new += einsum("ab,wab->w", x150, g.bvv) * 0.5
    .add 145 (.ein [(151, [0, 1]), (3, [2, 0, 1])] [2]) 1 2,
    -- 983: del x150
    .del 151,
    -- 984: x62 = np.zeros((nbos, nocc, nocc), dtype=types[float])
    .zeros 157 [2, 0, 0],
    -- 985: x62 += einsum("wia,wxja->xij", g.bov, u12)
    .add 157 (.ein [(2, [0, 1, 2]), (13, [0, 3, 4, 2])] [3, 1, 4]) 1 1,
    -- 986: x67 = np.zeros((nbos, nocc, nocc), dtype=types[float])
    .zeros 158 [2, 0, 0],
    -- 987: x67 += einsum("wij->wij", x62)
    .add 158 (.ein [(157, [0, 1, 2])] [0, 1, 2]) 1 1,
    -- 988: x137 += einsum("wij->wij", x62)
    .add 70 (.ein [(157, [0, 1, 2])] [0, 1, 2]) 1 1,
    -- 989: del x62
    .del 157,
    -- 990: x63 = np.zeros((nbos, nocc, nocc), dtype=types[float])
    .zeros 159 [2, 0, 0],
    -- 991: x63 += einsum("wia,jika->wjk", u11, v.ooov)
    .add 159 (.ein [(14, [0, 1, 2]), (6, [3, 1, 4, 2])] [0, 3, 4]) 1 1,
    -- 992: x67 += einsum("wij->wij", x63)
    .add 158 (.ein [(159, [0, 1, 2])] [0, 1, 2]) 1 1,
    -- 993: x137 += einsum("wij->wij", x63)
    .add 70 (.ein [(159, [0, 1, 2])] [0, 1, 2]) 1 1,
    -- 994: del x63
    .del 159,
    -- 995: x64 += einsum("ia->ia", f.ov)
    .add 59 (.ein [(12, [0, 1])] [0, 1]) 1 1,
    -- 996: x67 += einsum("ia,wja->wij", x64, u11)
    .add 158 (.ein [(59, [0, 1]), (14, [2, 3, 1])] [2, 0, 3]) 1 1,
    -- 997: x84 = np.zeros((nbos), dtype=types[float])
    .zeros 160 [2],
    -- 998: x84 += einsum("ia,wia->w", x64, u11)
    .add 160 (.ein [(59, [0, 1]), (14, [2, 0, 1])] [2]) 1 1,
    -- 999: x87 = np.zeros((nbos), dtype=types[float])
    .zeros 161 [2],
    -- 1000: x87 += einsum("w->w", x84)
    .add 161 (.ein [(160, [0])] [0]) 1 1,
    -- 1001: del x84
    .del 160,
    -- 1002: l1new += einsum("ia,ji->aj", x64, x79) * -1
    .add 37 (.ein [(59, [0, 1]), (138, [2, 0])] [1, 2]) (-1) 1,
    -- 1003: del x79
    .del 138,
    -- 1004: lu12new -= einsum("ia,wxji->xwaj", x64, x14)
    .add 73 (.ein [(59, [0, 1]), (81, [2, 3, 4, 0])] [3, 2, 1, 4]) (-1) 1,
    -- 1005: del x64
    .del 59,
    -- 1006: del x14
    .del 81,
    -- 1007: x65 += einsum("wia->wia", gc.bov)
    .add 91 (.ein [(31, [0, 1, 2])] [0, 1, 2]) 1 1,
    -- 1008: x67 += einsum("ia,wja->wji", t1, x65)
    .add 158 (.ein [(7, [0, 1]), (91, [2, 3, 1])] [2, 3, 0]) 1 1,
    -- 1009: l1new -= einsum("wia,wji->aj", x65, x69)
    .add 37 (.ein [(91, [0, 1, 2]), (131, [0, 3, 1])] [2, 3]) (-1) 1,
    -- 1010: del x65
    .del 91,
    -- 1011: del x69
    .del 131,
    -- 1012: x66 += einsum("wij->wij", g.boo)
    .add 102 (.ein [(0, [0, 1, 2])] [0, 1, 2]) 1 1,
    -- 1013: x67 += einsum("wx,wij->xij", s2, x66)
    .add 158 (.ein [(23, [0, 1]), (102, [0, 2, 3])] [1, 2, 3]) 1 1,
    -- 1014: x160 = np.zeros((nbos, nbos), dtype=types[float])
    .zeros 162 [2, 2],
    -- 1015: x160 += einsum("wij,xji->wx", x48, x66)
    .add 162 (.ein [(129, [0, 1, 2]), (102, [3, 2, 1])] [0, 3]) 1 1,
    -- 1016: del x48
    .del 129,
    -- 1017: x162 -= einsum("wx->xw", x160)
    .add 85 (.ein [(162, [0, 1])] [1, 0]) (-1) 1,
    -- 1018: del x160
    .del 162,
    -- 1019: x161 = np.zeros((nbos, nbos), dtype=types[float])
    .zeros 163 [2, 2],
    -- 1020: x161 += einsum("wij,xji->wx", x49, x66)
    .add 163 (.ein [(132, [0, 1, 2]), (102, [3, 2, 1])] [0, 3]) 1 1,
    -- 1021: del x49
    .del 132,
    -- 1022: x162 -= einsum("wx->xw", x161)
    .add 85 (.ein [(163, [0, 1])] [1, 0]) (-1) 1,
    -- 1023: del x161
    .del 163,
    -- 1024: x169 = np.zeros((nbos, nbos, nocc, nvir), dtype=types[float])
    .zeros 164 [2, 2, 0, 1],
    -- 1025: x169 += einsum("wai,xji->wxja", lu11, x66)
    .add 164 (.ein [(24, [0, 1, 2]), (102, [3, 4, 2])] [0, 3, 4, 1]) 1 1,
    -- 1026: x171 += einsum("wxia->xwia", x169)
    .add 135 (.ein [(164, [0, 1, 2, 3])] [1, 0, 2, 3]) 1 1,
    -- 1027: del x169
    .del 164,
    -- 1028: x67 += einsum("wij->wij", gc.boo)
    .add 158 (.ein [(30, [0, 1, 2])] [0, 1, 2]) 1 1,
    -- 1029: l1new -= einsum("wai,wji->aj", lu11, x67)
    .add 37 (.ein [(24, [0, 1, 2]), (158, [0, 3, 2])] [1, 3]) (-1) 1,
    -- 1030: del x67
    .del 158,
    -- 1031: x68 = np.zeros((nbos, nocc, nvir), dtype=types[float])
    .zeros 165 [2, 0, 1],
    -- 1032: x68 += einsum("wia,baji->wjb", u11, l2)
    .add 165 (.ein [(14, [0, 1, 2]), (4, [3, 2, 4, 1])] [0, 4, 3]) 1 1,
    -- 1033: x70 += einsum("ia,wja->wji", t1, x68)
    .add 133 (.ein [(7, [0, 1]), (165, [2, 3, 1])] [2, 3, 0]) 1 1,
    -- 1034: x76 = np.zeros((nbos, nocc, nvir), dtype=types[float])
    .zeros 166 [2, 0, 1],
    -- 1035: x76 += einsum("wia->wia", x68)
    .add 166 (.ein [(165, [0, 1, 2])] [0, 1, 2]) 1 1,
    -- 1036: l1new -= einsum("wij,wja->ai", x66, x68)
    .add 37 (.ein [(102, [0, 1, 2]), (165, [0, 2, 3])] [3, 1]) (-1) 1,
    -- 1037: del x66
    .del 102,
    -- 1038: del x68
    .del 165,
    -- 1039: x70 += einsum("ai,wja->wij", l1, u11)
    .add 133 (.ein [(10, [0, 1]), (14, [2, 3, 0])] [2, 1, 3]) 1 1,
    -- 1040: x70 += einsum("wai,wxja->xij", lu11, u12)
    .add 133 (.ein [(24, [0, 1, 2]), (13, [0, 3, 4, 1])] [3, 2, 4]) 1 1,
    -- 1041: l1new -= einsum("wia,wji->aj", g.bov, x70)
    .add 37 (.ein [(2, [0, 1, 2]), (133, [0, 3, 1])] [2, 3]) (-1) 1,
    -- 1042: del x70
    .del 133,
    -- 1043: x71 += einsum("wia->wia", gc.bov)
    .add 92 (.ein [(31, [0, 1, 2])] [0, 1, 2]) 1 1,
    -- 1044: x74 += einsum("wia,xia->xw", u11, x71) * 2
    .add 69 (.ein [(14, [0, 1, 2]), (92, [3, 1, 2])] [3, 0]) 2 1,
    -- 1045: del x71
    .del 92,
    -- 1046: x72 = np.zeros((nbos, nbos), dtype=types[float])
    .zeros 167 [2, 2],
    -- 1047: x72 += einsum("wia,xia->wx", g.bov, u11)
    .add 167 (.ein [(2, [0, 1, 2]), (14, [3, 1, 2])] [0, 3]) 1 1,
    -- 1048: x73 = np.zeros((nbos, nbos), dtype=types[float])
    .zeros 168 [2, 2],
    -- 1049: x73 += einsum("wx->xw", x72)
    .add 168 (.ein [(167, [0, 1])] [1, 0]) 1 1,
    -- 1050: x152 = np.zeros((nbos, nbos), dtype=types[float])
    .zeros 169 [2, 2],
    -- 1051: x152 += einsum("wx,yx->yw", ls2, x72)
    .add 169 (.ein [(16, [0, 1]), (167, [2, 1])] [2, 0]) 1 1,
    -- 1052: x162 += einsum("wx->wx", x152)
    .add 85 (.ein [(169, [0, 1])] [0, 1]) 1 1,
    -- 1053: del x152
    .del 169,
    -- 1054: x168 = np.zeros((nbos, nbos, nocc, nvir), dtype=types[float])
    .zeros 170 [2, 2, 0, 1],
    -- 1055: x168 += einsum("wx,xyai->wyia", x72, lu12)
    .add 170 (.ein [(167, [0, 1]), (20, [1, 2, 3, 4])] [0, 2, 4, 3]) 1 1,
    -- 1056: del x72
    .del 167,
    -- 1057: x171 -= einsum("wxia->wxia", x168)
    .add 135 (.ein [(170, [0, 1, 2, 3])] [0, 1, 2, 3]) (-1) 1,
    -- 1058: del x168
    .del 170,
    -- 1059: x73 += einsum("wx->wx", w)
    .add 168 (.ein [(29, [0, 1])] [0, 1]) 1 1,
    -- 1060: x74 += einsum("wx,yw->xy", s2, x73) * 2
    .add 69 (.ein [(23, [0, 1]), (168, [2, 0])] [1, 2]) 2 1,
    -- 1061: l1new += einsum("wx,xwai->ai", x74, lu12) * 0.5
    .add 37 (.ein [(69, [0, 1]), (20, [1, 0, 2, 3])] [2, 3]) 1 2,
    -- 1062: del x74
    .del 69,
    -- 1063: x141 += einsum("wx,xia->wia", x73, u11)
    .add 95 (.ein [(168, [0, 1]), (14, [1, 2, 3])] [0, 2, 3]) 1 1,
    -- 1064: del x73
    .del 168,
    -- 1065: x75 = np.zeros((nbos, nocc, nvir), dtype=types[float])
    .zeros 171 [2, 0, 1],
    -- 1066: x75 += einsum("wx,xai->wia", s2, lu11)
    .add 171 (.ein [(23, [0, 1]), (24, [1, 2, 3])] [0, 3, 2]) 1 1,
    -- 1067: x76 += einsum("wia->wia", x75)
    .add 166 (.ein [(171, [0, 1, 2])] [0, 1, 2]) 1 1,
    -- 1068: del x75
    .del 171,
    -- 1069: x106 = np.zeros((nocc, nocc, nvir, nvir), dtype=types[float])
    .zeros 172 [0, 0, 1, 1],
    -- 1070: x106 += einsum("wia,wjb->ijab", g.bov, x76)
    .add 172 (.ein [(2, [0, 1, 2]), (166, [0, 3, 4])] [1, 3, 2, 4]) 1 1,
    -- 1071: x107 += einsum("ijab->ijab", x106)
    .add 63 (.ein [(172, [0, 1, 2, 3])] [0, 1, 2, 3]) 1 1,
    -- 1072: del x106
    .del 172,
    -- 1073: l1new += einsum("wab,wia->bi", g.bvv, x76)
    .add 37 (.ein [(3, [0, 1, 2]), (166, [0, 3, 1])] [2, 3]) 1 1,
    -- 1074: del x76
    .del 166,
    -- 1075: x77 = np.zeros((nbos, nvir, nvir), dtype=types[float])
    .zeros 173 [2, 1, 1],
    -- 1076: x77 += einsum("wia,ibca->wbc", u11, v.ovvv)
    .add 173 (.ein [(14, [0, 1, 2]), (9, [1, 3, 4, 2])] [0, 3, 4]) 1 1,
    -- 1077: x78 = np.zeros((nbos, nvir, nvir), dtype=types[float])
    .zeros 174 [2, 1, 1],
    -- 1078: x78 -= einsum("wab->wab", x77)
    .add 174 (.ein [(173, [0, 1, 2])] [0, 1, 2]) (-1) 1,
    -- 1079: x138 = np.zeros((nbos, nvir, nvir), dtype=types[float])
    .zeros 175 [2, 1, 1],
    -- 1080: x138 += einsum("wab->wab", x77) * -1
    .add 175 (.ein [(173, [0, 1, 2])] [0, 1, 2]) (-1) 1,
    -- 1081: del x77
    .del 173,
    -- 1082: x78 += einsum("wab->wab", gc.bvv)
    .add 174 (.ein [(33, [0, 1, 2])] [0, 1, 2]) 1 1,
    -- 1083: l1new += einsum("wai,wab->bi", lu11, x78)
    .add 37 (.ein [(24, [0, 1, 2]), (174, [0, 1, 3])] [3, 2]) 1 1,
    -- 1084: del x78
    .del 174,
    -- 1085: x80 += einsum("ab->ab", f.vv)
    .add 116 (.ein [(26, [0, 1])] [0, 1]) 1 1,
    -- 1086: l1new += einsum("ai,ab->bi", l1, x80)
    .add 37 (.ein [(10, [0, 1]), (116, [0, 2])] [2, 1]) 1 1,
    -- 1087: del x80
    .del 116,
    -- 1088: x81 = np.zeros((nbos), dtype=types[float])
    .zeros 176 [2],
    -- 1089: x81 += einsum("w,xw->x", s1, w)
    .add 176 (.ein [(11, [0]), (29, [1, 0])] [1]) 1 1,
    -- 1090: x87 += einsum("w->w", x81)
    .add 161 (.ein [(176, [0])] [0]) 1 1,
    -- 1091: del x81
    .del 176,
    -- 1092: x82 = np.zeros((nbos), dtype=types[float])
    .zeros 177 [2],
    -- 1093: x82 += einsum("ia,wia->w", t1, gc.bov)
    .add 177 (.ein [(7, [0, 1]), (31, [2, 0, 1])] [2]) 1 1,
    -- 1094: x87 += einsum("w->w", x82)
    .add 161 (.ein [(177, [0])] [0]) 1 1,
    -- 1095: del x82
    .del 177,
    -- 1096: x83 = np.zeros((nbos), dtype=types[float])
    .zeros 178 [2],
    -- 1097: x83 += einsum("wia,wxia->x", g.bov, u12)
    .add 178 (.ein [(2, [0, 1, 2]), (13, [0, 3, 1, 2])] [3]) 1 1,
    -- 1098: x87 += einsum("w->w", x83)
    .add 161 (.ein [(178, [0])] [0]) 1 1,
    -- 1099: del x83
    .del 178,
    -- 1100: x85 += einsum("w->w", G)
    .add 124 (.ein [(27, [0])] [0]) 1 1,
    -- 1101: x86 = np.zeros((nbos), dtype=types[float])
    .zeros 179 [2],
    -- 1102: x86 += einsum("w,wx->x", x85, s2)
    .add 179 (.ein [(124, [0]), (23, [0, 1])] [1]) 1 1,
    -- 1103: x87 += einsum("w->w", x86)
    .add 161 (.ein [(179, [0])] [0]) 1 1,
    -- 1104: del x86
    .del 179,
    -- 1105: x162 += einsum("w,x->xw", ls1, x85)
    .add 85 (.ein [(15, [0]), (124, [1])] [1, 0]) 1 1,
    -- 1106: del x85
    .del 124,
    -- 1107: x87 += einsum("w->w", G)
    .add 161 (.ein [(27, [0])] [0]) 1 1,
    -- 1108: l1new += einsum("w,wai->ai", x87, lu11)
    .add 37 (.ein [(161, [0]), (24, [0, 1, 2])] [1, 2]) 1 1,
    -- 1109: ls1new += einsum("w,wx->x", x87, ls2)
    .add 145 (.ein [(161, [0]), (16, [0, 1])] [1]) 1 1,
    -- 1110: del x87
    .del 161,
    -- 1111: x88 = np.zeros((nbos), dtype=types[float])
    .zeros 180 [2],
    -- 1112: x88 += einsum("w->w", s1)
    .add 180 (.ein [(11, [0])] [0]) 1 1,
    -- 1113: x88 += einsum("w,xw->x", ls1, s2)
    .add 180 (.ein [(15, [0]), (23, [1, 0])] [1]) 1 1,
    -- 1114: x88 += einsum("ai,wia->w", l1, u11)
    .add 180 (.ein [(10, [0, 1]), (14, [2, 1, 0])] [2]) 1 1,
    -- 1115: x88 += einsum("wai,wxia->x", lu11, u12)
    .add 180 (.ein [(24, [0, 1, 2]), (13, [0, 3, 2, 1])] [3]) 1 1,
    -- 1116: l1new += einsum("w,wia->ai", x88, g.bov)
    .add 37 (.ein [(180, [0]), (2, [0, 1, 2])] [2, 1]) 1 1,
    -- 1117: del x88
    .del 180,
    -- 1118: x93 = np.zeros((nvir, nvir), dtype=types[float])
    .zeros 181 [1, 1],
    -- 1119: x93 += einsum("wia,wib->ab", g.bov, u11)
    .add 181 (.ein [(2, [0, 1, 2]), (14, [0, 1, 3])] [2, 3]) 1 1,
    -- 1120: x94 -= einsum("ab->ba", x93)
    .add 117 (.ein [(181, [0, 1])] [1, 0]) (-1) 1,
    -- 1121: x95 = np.zeros((nocc, nocc, nvir, nvir), dtype=types[float])
    .zeros 182 [0, 0, 1, 1],
    -- 1122: x95 += einsum("ab,acij->ijcb", x94, l2)
    .add 182 (.ein [(117, [0, 1]), (4, [0, 2, 3, 4])] [3, 4, 2, 1]) 1 1,
    -- 1123: del x94
    .del 117,
    -- 1124: x98 -= einsum("ijab->jiba", x95)
    .add 50 (.ein [(182, [0, 1, 2, 3])] [1, 0, 3, 2]) (-1) 1,
    -- 1125: del x95
    .del 182,
    -- 1126: x135 += einsum("ab->ba", x93)
    .add 118 (.ein [(181, [0, 1])] [1, 0]) 1 1,
    -- 1127: del x93
    .del 181,
    -- 1128: x96 += einsum("ia->ia", f.ov)
    .add 60 (.ein [(12, [0, 1])] [0, 1]) 1 1,
    -- 1129: x97 = np.zeros((nocc, nocc, nvir, nvir), dtype=types[float])
    .zeros 183 [0, 0, 1, 1],
    -- 1130: x97 += einsum("ia,jkib->jkba", x96, x1)
    .add 183 (.ein [(60, [0, 1]), (38, [2, 3, 0, 4])] [2, 3, 4, 1]) 1 1,
    -- 1131: x98 -= einsum("ijab->jiba", x97)
    .add 50 (.ein [(183, [0, 1, 2, 3])] [1, 0, 3, 2]) (-1) 1,
    -- 1132: del x97
    .del 183,
    -- 1133: l2new += einsum("ijab->abij", x98)
    .add 41 (.ein [(50, [0, 1, 2, 3])] [2, 3, 0, 1]) 1 1,
    -- 1134: l2new -= einsum("ijab->baij", x98)
    .add 41 (.ein [(50, [0, 1, 2, 3])] [3, 2, 0, 1]) (-1) 1,
    -- 1135: del x98
    .del 50,
    -- 1136: x107 += einsum("ai,jb->jiba", l1, x96)
    .add 63 (.ein [(10, [0, 1]), (60, [2, 3])] [2, 1, 3, 0]) 1 1,
    -- 1137: x109 = np.zeros((nocc, nocc), dtype=types[float])
    .zeros 184 [0, 0],
    -- 1138: x109 += einsum("ia,ja->ij", t1, x96)
    .add 184 (.ein [(7, [0, 1]), (60, [2, 1])] [0, 2]) 1 1,
    -- 1139: del x96
    .del 60,
    -- 1140: x110 += einsum("ij->ji", x109)
    .add 105 (.ein [(184, [0, 1])] [1, 0]) 1 1,
    -- 1141: del x109
    .del 184,
    -- 1142: x99 = np.zeros((nocc, nocc, nvir, nvir), dtype=types[float])
    .zeros 185 [0, 0, 1, 1],
    -- 1143: x99 += einsum("wia,wbj->ijab", gc.bov, lu11)
    .add 185 (.ein [(31, [0, 1, 2]), (24, [0, 3, 4])] [1, 4, 2, 3]) 1 1,
    -- 1144: x107 += einsum("ijab->ijab", x99)
    .add 63 (.ein [(185, [0, 1, 2, 3])] [0, 1, 2, 3]) 1 1,
    -- 1145: del x99
    .del 185,
    -- 1146: x101 = np.zeros((nocc, nocc, nvir, nvir), dtype=types[float])
    .zeros 186 [0, 0, 1, 1],
    -- 1147: x101 -= einsum("ijab,ikca->jkbc", t2, v.oovv)
    .add 186 (.ein [(5, [0, 1, 2, 3]), (8, [0, 4, 5, 2])] [1, 4, 3, 5]) (-1) 1,
    -- 1148: x102 += einsum("ijab->ijab", x101)
    .add 80 (.ein [(186, [0, 1, 2, 3])] [0, 1, 2, 3]) 1 1,
    -- 1149: del x101
    .del 186,
    -- 1150: x102 -= einsum("iajb->jiab", v.ovov)
    .add 80 (.ein [(18, [0, 1, 2, 3])] [2, 0, 1, 3]) (-1) 1,
    -- 1151: x103 = np.zeros((nocc, nocc, nvir, nvir), dtype=types[float])
    .zeros 187 [0, 0, 1, 1],
    -- 1152: x103 += einsum("abij,ikac->jkbc", l2, x102)
    .add 187 (.ein [(4, [0, 1, 2, 3]), (80, [2, 4, 0, 5])] [3, 4, 1, 5]) 1 1,
    -- 1153: del x102
    .del 80,
    -- 1154: x107 += einsum("ijab->ijab", x103)
    .add 63 (.ein [(187, [0, 1, 2, 3])] [0, 1, 2, 3]) 1 1,
    -- 1155: del x103
    .del 187,
    -- 1156: x104 += einsum("ijka->kjia", v.ooov)
    .add 51 (.ein [(6, [0, 1, 2, 3])] [2, 1, 0, 3]) 1 1,
    -- 1157: x105 = np.zeros((nocc, nocc, nvir, nvir), dtype=types[float])
    .zeros 188 [0, 0, 1, 1],
    -- 1158: x105 += einsum("ijka,iklb->jlab", x1, x104)
    .add 188 (.ein [(38, [0, 1, 2, 3]), (51, [0, 2, 4, 5])] [1, 4, 3, 5]) 1 1,
    -- 1159: del x104
    .del 51,
    -- 1160: del x1
    .del 38,
    -- 1161: x107 -= einsum("ijab->ijab", x105)
    .add 63 (.ein [(188, [0, 1, 2, 3])] [0, 1, 2, 3]) (-1) 1,
    -- 1162: del x105
    .del 188,
    -- 1163: l2new += einsum("ijab->abij", x107)
    .add 41 (.ein [(63, [0, 1, 2, 3])] [2, 3, 0, 1]) 1 1,
    -- 1164: l2new -= einsum("ijab->baij", x107)
    .add 41 (.ein [(63, [0, 1, 2, 3])] [3, 2, 0, 1]) (-1) 1,
    -- 1165: l2new -= einsum("ijab->abji", x107)
    .add 41 (.ein [(63, [0, 1, 2, 3])] [2, 3, 1, 0]) (-1) 1,
    -- 1166: l2new += einsum("ijab->baji", x107)
    .add 41 (.ein [(63, [0, 1, 2, 3])] [3, 2, 1, 0]) 1 1,
    -- 1167: del x107
    .del 63,
    -- 1168: x108 = np.zeros((nocc, nocc, nvir, nvir), dtype=types[float])
    .zeros 189 [0, 0, 1, 1],
    -- 1169: x108 += einsum("ai,jabc->ijbc", l1, v.ovvv)
    .add 189 (.ein [(10, [0, 1]), (9, [2, 0, 3, 4])] [1, 2, 3, 4]) 1 1,
    -- 1170: x117 += einsum("ijab->ijba", x108)
    .add 109 (.ein [(189, [0, 1, 2, 3])] [0, 1, 3, 2]) 1 1,
    -- 1171: del x108
    .del 189,
    -- 1172: x110 += einsum("ij->ij", f.oo)
    .add 105 (.ein [(25, [0, 1])] [0, 1]) 1 1,
    -- 1173: x111 = np.zeros((nocc, nocc, nvir, nvir), dtype=types[float])
    .zeros 190 [0, 0, 1, 1],
    -- 1174: x111 += einsum("ij,abjk->kiab", x110, l2)
    .add 190 (.ein [(105, [0, 1]), (4, [2, 3, 1, 4])] [4, 0, 2, 3]) 1 1,
    -- 1175: del x110
    .del 105,
    -- 1176: x117 += einsum("ijab->jiba", x111)
    .add 109 (.ein [(190, [0, 1, 2, 3])] [1, 0, 3, 2]) 1 1,
    -- 1177: del x111
    .del 190,
    -- 1178: l2new += einsum("ijab->abij", x117)
    .add 41 (.ein [(109, [0, 1, 2, 3])] [2, 3, 0, 1]) 1 1,
    -- 1179: l2new -= einsum("ijab->abji", x117)
    .add 41 (.ein [(109, [0, 1, 2, 3])] [2, 3, 1, 0]) (-1) 1,
    -- 1180: del x117
    .del 109,
    -- 1181: x118 = np.zeros((nocc, nocc, nvir, nvir), dtype=types[float])
    .zeros 191 [0, 0, 1, 1],
    -- 1182: x118 += einsum("ai,jkib->jkab", l1, v.ooov)
    .add 191 (.ein [(10, [0, 1]), (6, [2, 3, 1, 4])] [2, 3, 0, 4]) 1 1,
    -- 1183: x120 = np.zeros((nocc, nocc, nvir, nvir), dtype=types[float])
    .zeros 192 [0, 0, 1, 1],
    -- 1184: x120 -= einsum("ijab->jiab", x118)
    .add 192 (.ein [(191, [0, 1, 2, 3])] [1, 0, 2, 3]) (-1) 1,
    -- 1185: del x118
    .del 191,
    -- 1186: x119 = np.zeros((nocc, nocc, nvir, nvir), dtype=types[float])
    .zeros 193 [0, 0, 1, 1],
    -- 1187: x119 += einsum("ab,caij->ijbc", f.vv, l2)
    .add 193 (.ein [(26, [0, 1]), (4, [2, 0, 3, 4])] [3, 4, 1, 2]) 1 1,
    -- 1188: x120 -= einsum("ijab->jiab", x119)
    .add 192 (.ein [(193, [0, 1, 2, 3])] [1, 0, 2, 3]) (-1) 1,
    -- 1189: del x119
    .del 193,
    -- 1190: l2new -= einsum("ijab->abij", x120)
    .add 41 (.ein [(192, [0, 1, 2, 3])] [2, 3, 0, 1]) (-1) 1,
    -- 1191: l2new += einsum("ijab->baij", x120)
    .add 41 (.ein [(192, [0, 1, 2, 3])] [3, 2, 0, 1]) 1 1,
    -- 1192: del x120
    .del 192,
    -- 1193: x125 = np.zeros((nvir, nvir), dtype=types[float])
    .zeros 194 [1, 1],
    -- 1194: x125 += einsum("ijab,ijac->bc", t2, v.oovv)
    .add 194 (.ein [(5, [0, 1, 2, 3]), (8, [0, 1, 2, 4])] [3, 4]) 1 1,
    -- 1195: x126 = np.zeros((nocc, nocc, nvir, nvir), dtype=types[float])
    .zeros 195 [0, 0, 1, 1],
    -- 1196: x126 -= einsum("ab,caij->jicb", x125, l2)
    .add 195 (.ein [(194, [0, 1]), (4, [2, 0, 3, 4])] [4, 3, 2, 1]) (-1) 1,
    -- 1197: x129 += einsum("ijab->ijab", x126) * 0.5
    .add 156 (.ein [(195, [0, 1, 2, 3])] [0, 1, 2, 3]) 1 2,
    -- 1198: del x126
    .del 195,
    -- 1199: l2new += einsum("ijab->abij", x129) * -1
    .add 41 (.ein [(156, [0, 1, 2, 3])] [2, 3, 0, 1]) (-1) 1,
    -- 1200: l2new += einsum("ijab->baij", x129)
    .add 41 (.ein [(156, [0, 1, 2, 3])] [3, 2, 0, 1]) 1 1,
    -- 1201: del x129
    .del 156,
    -- 1202: x135 += einsum("ab->ab", x125) * 0.5
    .add 118 (.ein [(194, [0, 1])] [0, 1]) 1 2,
    -- 1203: del x125
    .del 194,
    -- 1204: x130 = np.zeros((nbos, nbos, nocc, nvir), dtype=types[float])
    .zeros 196 [2, 2, 0, 1],
    -- 1205: x130 += einsum("wxia,ijab->wxjb", u12, v.oovv)
    .add 196 (.ein [(13, [0, 1, 2, 3]), (8, [2, 4, 3, 5])] [0, 1, 4, 5]) 1 1,
    -- 1206: x131 = np.zeros((nocc, nocc, nvir, nvir), dtype=types[float])
    .zeros 197 [0, 0, 1, 1],
    -- 1207: x131 += einsum("wxai,wxjb->ijab", lu12, x130)
    .add 197 (.ein [(20, [0, 1, 2, 3]), (196, [0, 1, 4, 5])] [3, 4, 2, 5]) 1 1,
    -- 1208: del x130
    .del 196,
    -- 1209: l2new += einsum("ijab->abij", x131) * 0.5
    .add 41 (.ein [(197, [0, 1, 2, 3])] [2, 3, 0, 1]) 1 2,
    -- 1210: l2new += einsum("ijab->baij", x131) * -0.5
    .add 41 (.ein [(197, [0, 1, 2, 3])] [3, 2, 0, 1]) (-1) 2,
    -- 1211: l2new += einsum("ijab->abji", x131) * -0.5
    .add 41 (.ein [(197, [0, 1, 2, 3])] [2, 3, 1, 0]) (-1) 2,
    -- 1212: l2new += einsum("ijab->baji", x131) * 0.5
    .add 41 (.ein [(197, [0, 1, 2, 3])] [3, 2, 1, 0]) 1 2,
    -- 1213: del x131
    .del 197,
    -- 1214: x132 += einsum("ijka->jika", v.ooov) * -1
    .add 52 (.ein [(6, [0, 1, 2, 3])] [1, 0, 2, 3]) (-1) 1,
    -- 1215: x133 += einsum("ia,jkla->kjli", t1, x132) * -4
    .add 76 (.ein [(7, [0, 1]), (52, [2, 3, 4, 1])] [3, 2, 4, 0]) (-4) 1,
    -- 1216: del x132
    .del 52,
    -- 1217: x133 += einsum("ijkl->jilk", v.oooo) * 2
    .add 76 (.ein [(17, [0, 1, 2, 3])] [1, 0, 3, 2]) 2 1,
    -- 1218: l2new += einsum("abij,klij->balk", l2, x133) * 0.25
    .add 41 (.ein [(4, [0, 1, 2, 3]), (76, [4, 5, 2, 3])] [1, 0, 5, 4]) 1 4,
    -- 1219: del x133
    .del 76,
    -- 1220: x135 += einsum("ab->ab", f.vv) * -1
    .add 118 (.ein [(26, [0, 1])] [0, 1]) (-1) 1,
    -- 1221: x141 += einsum("ab,wib->wia", x135, u11) * -1
    .add 95 (.ein [(118, [0, 1]), (14, [2, 3, 1])] [2, 3, 0]) (-1) 1,
    -- 1222: lu12new += einsum("ab,wxai->xwbi", x135, lu12) * -1
    .add 73 (.ein [(118, [0, 1]), (20, [2, 3, 0, 4])] [3, 2, 1, 4]) (-1) 1,
    -- 1223: del x135
    .del 118,
    -- 1224: x136 += einsum("wia->wia", gc.bov)
    .add 94 (.ein [(31, [0, 1, 2])] [0, 1, 2]) 1 1,
    -- 1225: x137 += einsum("ia,wja->wji", t1, x136)
    .add 70 (.ein [(7, [0, 1]), (94, [2, 3, 1])] [2, 3, 0]) 1 1,
    -- 1226: del x136
    .del 94,
    -- 1227: x137 += einsum("wij->wij", gc.boo)
    .add 70 (.ein [(30, [0, 1, 2])] [0, 1, 2]) 1 1,
    -- 1228: x141 += einsum("ia,wij->wja", t1, x137) * -1
    .add 95 (.ein [(7, [0, 1]), (70, [2, 0, 3])] [2, 3, 1]) (-1) 1,
    -- 1229: del x137
    .del 70,
    -- 1230: x138 += einsum("wab->wab", gc.bvv)
    .add 175 (.ein [(33, [0, 1, 2])] [0, 1, 2]) 1 1,
    -- 1231: x141 += einsum("ia,wba->wib", t1, x138)
    .add 95 (.ein [(7, [0, 1]), (175, [2, 3, 1])] [2, 0, 3]) 1 1,
    -- 1232: del x138
    .del 175,
    -- 1233: x139 = np.zeros((nbos, nocc, nvir), dtype=types[float])
    .zeros 198 [2, 0, 1],
    -- 1234: x139 += einsum("ia,wba->wib", t1, g.bvv)
    .add 198 (.ein [(7, [0, 1]), (3, [2, 3, 1])] [2, 0, 3]) 1 1,
    -- 1235: x140 = np.zeros((nbos, nocc, nvir), dtype=types[float])
    .zeros 199 [2, 0, 1],
    -- 1236: x140 += einsum("wia->wia", x139)
    .add 199 (.ein [(198, [0, 1, 2])] [0, 1, 2]) 1 1,
    -- 1237: x158 = np.zeros((nbos, nocc, nvir), dtype=types[float])
    .zeros 200 [2, 0, 1],
    -- 1238: x158 += einsum("wia->wia", x139)
    .add 200 (.ein [(198, [0, 1, 2])] [0, 1, 2]) 1 1,
    -- 1239: del x139
    .del 198,
    -- 1240: x140 += einsum("wai->wia", g.bvo)
    .add 199 (.ein [(1, [0, 1, 2])] [0, 2, 1]) 1 1,
    -- 1241: x141 += einsum("wx,wia->xia", s2, x140)
    .add 95 (.ein [(23, [0, 1]), (199, [0, 2, 3])] [1, 2, 3]) 1 1,
    -- 1242: del x140
    .del 199,
    -- 1243: x141 += einsum("wai->wia", gc.bvo)
    .add 95 (.ein [(32, [0, 1, 2])] [0, 2, 1]) 1 1,
    -- 1244: x141 += einsum("wab,wxib->xia", g.bvv, u12)
    .add 95 (.ein [(3, [0, 1, 2]), (13, [0, 3, 4, 2])] [3, 4, 1]) 1 1,
    -- 1245: x141 += einsum("wia,ibja->wjb", u11, v.ovov) * -1
    .add 95 (.ein [(14, [0, 1, 2]), (18, [1, 3, 4, 2])] [0, 4, 3]) (-1) 1,
    -- 1246: ls1new += einsum("wia,wxai->x", x141, lu12)
    .add 145 (.ein [(95, [0, 1, 2]), (20, [0, 3, 2, 1])] [3]) 1 1,
    -- 1247: del x141
    .del 95,
    -- 1248: x148 += einsum("ai->ia", f.vo) * -1
    .add 56 (.ein [(28, [0, 1])] [1, 0]) (-1) 1,
    -- 1249: ls1new += einsum("ia,wai->w", x148, lu11) * -1
    .add 145 (.ein [(56, [0, 1]), (24, [2, 1, 0])] [2]) (-1) 1,
    -- 1250: ls2new = np.zeros((nbos, nbos), dtype=types[float])
    .zeros 201 [2, 2],
    -- 1251: ls2new += einsum("ia,wxai->xw", x148, lu12) * -1
    .add 201 (.ein [(56, [0, 1]), (20, [2, 3, 1, 0])] [3, 2]) (-1) 1,
    -- 1252: del x148
    .del 56,
    -- 1253: x149 += einsum("ia->ia", t1) * -2
    .add 44 (.ein [(7, [0, 1])] [0, 1]) (-2) 1,
    -- 1254: ls1new += einsum("ia,wia->w", x149, g.bov) * -0.5
    .add 145 (.ein [(44, [0, 1]), (2, [2, 0, 1])] [2]) (-1) 2,
    -- 1255: del x149
    .del 44,
    -- 1256: x151 = np.zeros((nbos, nbos), dtype=types[float])
    .zeros 202 [2, 2],
    -- 1257: x151 += einsum("wx,xy->wy", ls2, w)
    .add 202 (.ein [(16, [0, 1]), (29, [1, 2])] [0, 2]) 1 1,
    -- 1258: x162 += einsum("wx->wx", x151)
    .add 85 (.ein [(202, [0, 1])] [0, 1]) 1 1,
    -- 1259: del x151
    .del 202,
    -- 1260: x153 = np.zeros((nbos, nvir, nvir), dtype=types[float])
    .zeros 203 [2, 1, 1],
    -- 1261: x153 += einsum("wia,wxbi->xba", u11, lu12)
    .add 203 (.ein [(14, [0, 1, 2]), (20, [0, 3, 4, 1])] [3, 4, 2]) 1 1,
    -- 1262: x154 = np.zeros((nbos, nbos), dtype=types[float])
    .zeros 204 [2, 2],
    -- 1263: x154 += einsum("wab,xab->wx", g.bvv, x153)
    .add 204 (.ein [(3, [0, 1, 2]), (203, [3, 1, 2])] [0, 3]) 1 1,
    -- 1264: x162 += einsum("wx->wx", x154)
    .add 85 (.ein [(204, [0, 1])] [0, 1]) 1 1,
    -- 1265: del x154
    .del 204,
    -- 1266: x167 = np.zeros((nbos, nbos, nocc, nvir), dtype=types[float])
    .zeros 205 [2, 2, 0, 1],
    -- 1267: x167 += einsum("wia,xba->wxib", g.bov, x153)
    .add 205 (.ein [(2, [0, 1, 2]), (203, [3, 4, 2])] [0, 3, 1, 4]) 1 1,
    -- 1268: del x153
    .del 203,
    -- 1269: x171 += einsum("wxia->wxia", x167)
    .add 135 (.ein [(205, [0, 1, 2, 3])] [0, 1, 2, 3]) 1 1,
    -- 1270: del x167
    .del 205,
    -- 1271: x157 = np.zeros((nbos, nocc, nvir), dtype=types[float])
    .zeros 206 [2, 0, 1],
    -- 1272: x157 += einsum("wia,jiba->wjb", g.bov, t2)
    .add 206 (.ein [(2, [0, 1, 2]), (5, [3, 1, 4, 2])] [0, 3, 4]) 1 1,
    -- 1273: x158 += einsum("wia->wia", x157)
    .add 200 (.ein [(206, [0, 1, 2])] [0, 1, 2]) 1 1,
    -- 1274: del x157
    .del 206,
    -- 1275: x158 += einsum("wai->wia", g.bvo)
    .add 200 (.ein [(1, [0, 1, 2])] [0, 2, 1]) 1 1,
    -- 1276: x159 = np.zeros((nbos, nbos), dtype=types[float])
    .zeros 207 [2, 2],
    -- 1277: x159 += einsum("wai,xia->wx", lu11, x158)
    .add 207 (.ein [(24, [0, 1, 2]), (200, [3, 2, 1])] [0, 3]) 1 1,
    -- 1278: del x158
    .del 200,
    -- 1279: x162 += einsum("wx->xw", x159)
    .add 85 (.ein [(207, [0, 1])] [1, 0]) 1 1,
    -- 1280: del x159
    .del 207,
    -- 1281: ls2new += einsum("wx->wx", x162)
    .add 201 (.ein [(85, [0, 1])] [0, 1]) 1 1,
    -- 1282: ls2new += einsum("wx->xw", x162)
    .add 201 (.ein [(85, [0, 1])] [1, 0]) 1 1,
    -- 1283: del x162
    .del 85,
    -- 1284: x163 = np.zeros((nbos, nbos, nocc, nvir), dtype=types[float])
    .zeros 208 [2, 2, 0, 1],
    -- 1285: x163 += einsum("wxai,ijab->wxjb", lu12, t2)
    .add 208 (.ein [(20, [0, 1, 2, 3]), (5, [3, 4, 2, 5])] [0, 1, 4, 5]) 1 1,
    -- 1286: lu12new += einsum("ijab,wxia->xwbj", v.oovv, x163)
    .add 73 (.ein [(8, [0, 1, 2, 3]), (208, [4, 5, 0, 2])] [5, 4, 3, 1]) 1 1,
    -- 1287: del x163
    .del 208,
    -- 1288: x164 = np.zeros((nbos, nbos, nbos), dtype=types[float])
    .zeros 209 [2, 2, 2],
    -- 1289: x164 += einsum("wia,xyai->xyw", u11, lu12)
    .add 209 (.ein [(14, [0, 1, 2]), (20, [3, 4, 2, 1])] [3, 4, 0]) 1 1,
    -- 1290: lu12new += einsum("wia,xyw->yxai", g.bov, x164)
    .add 73 (.ein [(2, [0, 1, 2]), (209, [3, 4, 0])] [4, 3, 2, 1]) 1 1,
    -- 1291: del x164
    .del 209,
    -- 1292: x165 = np.zeros((nbos, nbos, nocc, nvir), dtype=types[float])
    .zeros 210 [2, 2, 0, 1],
    -- 1293: x165 += einsum("wx,wyai->yxia", w, lu12)
    .add 210 (.ein [(29, [0, 1]), (20, [0, 2, 3, 4])] [2, 1, 4, 3]) 1 1,
    -- 1294: x171 -= einsum("wxia->wxia", x165)
    .add 135 (.ein [(210, [0, 1, 2, 3])] [0, 1, 2, 3]) (-1) 1,
    -- 1295: del x165
    .del 210,
    -- 1296: x166 = np.zeros((nbos, nbos, nocc, nvir), dtype=types[float])
    .zeros 211 [2, 2, 0, 1],
    -- 1297: x166 += einsum("wab,xai->wxib", g.bvv, lu11)
    .add 211 (.ein [(3, [0, 1, 2]), (24, [3, 1, 4])] [0, 3, 4, 2]) 1 1,
    -- 1298: x171 -= einsum("wxia->wxia", x166)
    .add 135 (.ein [(211, [0, 1, 2, 3])] [0, 1, 2, 3]) (-1) 1,
    -- 1299: del x166
    .del 211,
    -- 1300: lu12new -= einsum("wxia->wxai", x171)
    .add 73 (.ein [(135, [0, 1, 2, 3])] [0, 1, 3, 2]) (-1) 1,
    -- 1301: lu12new -= einsum("wxia->xwai", x171)
    .add 73 (.ein [(135, [0, 1, 2, 3])] [1, 0, 3, 2]) (-1) 1,
    -- 1302: del x171
    .del 135,
    -- 1303: l1new += einsum("w,wia->ai", ls1, gc.bov)
    .add 37 (.ein [(15, [0]), (31, [0, 1, 2])] [2, 1]) 1 1,
    -- 1304: l1new -= einsum("ai,jaib->bj", l1, v.ovov)
    .add 37 (.ein [(10, [0, 1]), (18, [2, 0, 1, 3])] [3, 2]) (-1) 1,
    -- 1305: l1new += einsum("ia->ai", f.ov)
    .add 37 (.ein [(12, [0, 1])] [1, 0]) 1 1,
    -- 1306: l2new += einsum("abij,abcd->dcji", l2, v.vvvv) * 0.5
    .add 41 (.ein [(4, [0, 1, 2, 3]), (22, [0, 1, 4, 5])] [5, 4, 3, 2]) 1 2,
    -- 1307: l2new += einsum("ijab->baji", v.oovv)
    .add 41 (.ein [(8, [0, 1, 2, 3])] [3, 2, 1, 0]) 1 1,
    -- 1308: ls1new += einsum("ai,wai->w", l1, g.bvo)
    .add 145 (.ein [(10, [0, 1]), (1, [2, 0, 1])] [2]) 1 1,
    -- 1309: ls1new += einsum("w->w", G)
    .add 145 (.ein [(27, [0])] [0]) 1 1,
    -- 1310: ls1new += einsum("w,wx->x", ls1, w)
    .add 145 (.ein [(15, [0]), (29, [0, 1])] [1]) 1 1,
    -- 1311: lu11new -= einsum("wij,xwaj->xai", gc.boo, lu12)
    .add 72 (.ein [(30, [0, 1, 2]), (20, [3, 0, 4, 2])] [3, 4, 1]) (-1) 1,
    -- 1312: lu11new += einsum("wia->wai", g.bov)
    .add 72 (.ein [(2, [0, 1, 2])] [0, 2, 1]) 1 1,
    -- 1313: lu11new += einsum("wai,baji->wbj", g.bvo, l2)
    .add 72 (.ein [(1, [0, 1, 2]), (4, [3, 1, 4, 2])] [0, 3, 4]) 1 1,
    -- 1314: lu11new -= einsum("wai,jaib->wbj", lu11, v.ovov)
    .add 72 (.ein [(24, [0, 1, 2]), (18, [3, 1, 2, 4])] [0, 4, 3]) (-1) 1,
    -- 1315: lu11new += einsum("wab,xwai->xbi", gc.bvv, lu12)
    .add 72 (.ein [(33, [0, 1, 2]), (20, [3, 0, 1, 4])] [3, 2, 4]) 1 1,
    -- 1316: lu11new += einsum("ab,wai->wbi", f.vv, lu11)
    .add 72 (.ein [(26, [0, 1]), (24, [2, 0, 3])] [2, 1, 3]) 1 1,
    -- 1317: lu11new += einsum("ai,wab->wbi", l1, g.bvv)
    .add 72 (.ein [(10, [0, 1]), (3, [2, 0, 3])] [2, 3, 1]) 1 1,
    -- 1318: lu11new -= einsum("ij,waj->wai", f.oo, lu11)
    .add 72 (.ein [(25, [0, 1]), (24, [2, 3, 1])] [2, 3, 0]) (-1) 1,
    -- 1319: lu11new -= einsum("ai,wji->waj", l1, g.boo)
    .add 72 (.ein [(10, [0, 1]), (0, [2, 3, 1])] [2, 0, 3]) (-1) 1,
    -- 1320: lu11new += einsum("w,xwai->xai", G, lu12)
    .add 72 (.ein [(27, [0]), (20, [1, 0, 2, 3])] [1, 2, 3]) 1 1,
    -- 1321: lu11new += einsum("wx,xia->wai", ls2, gc.bov)
    .add 72 (.ein [(16, [0, 1]), (31, [1, 2, 3])] [0, 3, 2]) 1 1,
    -- 1322: lu11new += einsum("wx,wai->xai", w, lu11)
    .add 72 (.ein [(29, [0, 1]), (24, [0, 2, 3])] [1, 2, 3]) 1 1
  ]
  ret := [(chars! "l1new", 37), (chars! "l2new", 41), (chars! "ls1new", 145), (chars! "ls2new", 201), (chars! "lu11new", 72), (chars! "lu12new", 73)]

/-- codegen/GCCSD_SD_1_2.py:1326-1392 `make_rdm1_f`. -/
def make_rdm1_f : GenFun where
  args := [chars! "g.boo", chars! "g.bvo", chars! "g.bov", chars! "g.bvv", chars! "lu11", chars! "u11", chars! "l1", chars! "t1", chars! "l2", chars! "t2", chars! "lu12", chars! "u12", chars! "ls1", chars! "ls2"]
  body := [
    -- 1328: gc = Namespace(
    .set 14 (.tr 0 [0, 2, 1]) 1 1,
    .set 15 (.tr 1 [0, 2, 1]) 1 1,
    .set 16 (.tr 2 [0, 2, 1]) 1 1,
    .set 17 (.tr 3 [0, 2, 1]) 1 1,
    -- 1335: delta_oo = np.eye(nocc)
    .eye 18 0,
    -- 1336: delta_vv = np.eye(nvir)
    .eye 19 1,
    -- 1339: x0 = np.zeros((nocc, nocc), dtype=types[float])
    .zeros 20 [0, 0],
    -- 1340: x0 += einsum("wai,wja->ij", lu11, u11)
    .add 20 (.ein [(4, [0, 1, 2]), (5, [0, 3, 1])] [2, 3]) 1 1,
    -- 1341: x7 = np.zeros((nocc, nocc), dtype=types[float])
    .zeros 21 [0, 0],
    -- 1342: x7 += einsum("ij->ij", x0) * 2
    .add 21 (.ein [(20, [0, 1])] [0, 1]) 2 1,
    -- 1343: rdm1_f_oo = np.zeros((nocc, nocc), dtype=types[float])
    .zeros 22 [0, 0],
    -- 1344: rdm1_f_oo -= einsum("ij->ij", x0)
    .add 22 (.ein [(20, [0, 1])] [0, 1]) (-1) 1,
    -- 1345: del x0
    .del 20,
    -- 1346: x1 = np.zeros((nocc, nocc), dtype=types[float])
    .zeros 23 [0, 0],
    -- 1347: x1 += einsum("ai,ja->ij", l1, t1)
    .add 23 (.ein [(6, [0, 1]), (7, [2, 0])] [1, 2]) 1 1,
    -- 1348: x7 += einsum("ij->ij", x1) * 2
    .add 21 (.ein [(23, [0, 1])] [0, 1]) 2 1,
    -- 1349: rdm1_f_oo -= einsum("ij->ij", x1)
    .add 22 (.ein [(23, [0, 1])] [0, 1]) (-1) 1,
    -- 1350: del x1
    .del 23,
    -- 1351: x2 = np.zeros((nocc, nocc), dtype=types[float])
    .zeros 24 [0, 0],
    -- 1352: x2 += einsum("abij,kjab->ik", l2, t2)
    .add 24 (.ein [(8, [0, 1, 2, 3]), (9, [4, 3, 0, 1])] [2, 4]) 1 1,
    -- 1353: x7 += einsum("ij->ij", x2)
    .add 21 (.ein [(24, [0, 1])] [0, 1]) 1 1,
    -- 1354: rdm1_f_oo += einsum("ij->ij", x2) * -0.5
    .add 22 (.ein [(24, [0, 1])] [0, 1]) (-1) 2,
    -- 1355: del x2
    .del 24,
    -- 1356: x3 = np.zeros((nocc, nocc), dtype=types[float])
    .zeros 25 [0, 0],
    -- 1357: x3 += einsum("wxai,wxja->ij", lu12, u12)
    .add 25 (.ein [(10, [0, 1, 2, 3]), (11, [0, 1, 4, 2])] [3, 4]) 1 1,
    -- 1358: x7 += einsum("ij->ij", x3)
    .add 21 (.ein [(25, [0, 1])] [0, 1]) 1 1,
    -- 1359: rdm1_f_vo = np.zeros((nvir, nocc), dtype=types[float])
    .zeros 26 [1, 0],
    -- 1360: rdm1_f_vo += einsum("ia,ij->aj", t1, x7) * -0.5
    .add 26 (.ein [(7, [0, 1]), (21, [0, 2])] [1, 2]) (-1) 2,
    -- 1361: del x7
    .del 21,
    -- 1362: rdm1_f_oo += einsum("ij->ij", x3) * -0.5
    .add 22 (.ein [(25, [0, 1])] [0, 1]) (-1) 2,
    -- 1363: del x3
    .del 25,
    -- 1364: x4 = np.zeros((nbos, nbos, nocc, nocc), dtype=types[float])
    .zeros 27 [2, 2, 0, 0],
    -- 1365: x4 += einsum("ia,wxaj->wxji", t1, lu12)
    .add 27 (.ein [(7, [0, 1]), (10, [2, 3, 1, 4])] [2, 3, 4, 0]) 1 1,
    -- 1366: rdm1_f_vo += einsum("wxia,wxij->aj", u12, x4) * -0.5
    .add 26 (.ein [(11, [0, 1, 2, 3]), (27, [0, 1, 2, 4])] [3, 4]) (-1) 2,
    -- 1367: del x4
    .del 27,
    -- 1368: x5 = np.zeros((nocc, nocc, nocc, nvir), dtype=types[float])
    .zeros 28 [0, 0, 0, 1],
    -- 1369: x5 += einsum("ia,bajk->jkib", t1, l2)
    .add 28 (.ein [(7, [0, 1]), (8, [2, 1, 3, 4])] [3, 4, 0, 2]) 1 1,
    -- 1370: rdm1_f_vo += einsum("ijab,ijkb->ak", t2, x5) * 0.5
    .add 26 (.ein [(9, [0, 1, 2, 3]), (28, [0, 1, 4, 3])] [2, 4]) 1 2,
    -- 1371: del x5
    .del 28,
    -- 1372: x6 = np.zeros((nbos, nocc, nocc), dtype=types[float])
    .zeros 29 [2, 0, 0],
    -- 1373: x6 += einsum("ia,waj->wji", t1, lu11)
    .add 29 (.ein [(7, [0, 1]), (4, [2, 1, 3])] [2, 3, 0]) 1 1,
    -- 1374: x6 += einsum("wia,wxaj->xji", u11, lu12)
    .add 29 (.ein [(5, [0, 1, 2]), (10, [0, 3, 2, 4])] [3, 4, 1]) 1 1,
    -- 1375: rdm1_f_vo -= einsum("wia,wij->aj", u11, x6)
    .add 26 (.ein [(5, [0, 1, 2]), (29, [0, 1, 3])] [2, 3]) (-1) 1,
    -- 1376: del x6
    .del 29,
    -- 1377: rdm1_f_oo += einsum("ij->ji", delta_oo)
    .add 22 (.ein [(18, [0, 1])] [1, 0]) 1 1,
    -- 1378: rdm1_f_ov = np.zeros((nocc, nvir), dtype=types[float])
    .zeros 30 [0, 1],
    -- 1379: rdm1_f_ov += einsum("ai->ia", l1)
    .add 30 (.ein [(6, [0, 1])] [1, 0]) 1 1,
    -- 1380: rdm1_f_vo += einsum("ai,jiba->bj", l1, t2)
    .add 26 (.ein [(6, [0, 1]), (9, [2, 1, 3, 0])] [3, 2]) 1 1,
    -- 1381: rdm1_f_vo += einsum("ia->ai", t1)
    .add 26 (.ein [(7, [0, 1])] [1, 0]) 1 1,
    -- 1382: rdm1_f_vo += einsum("w,wia->ai", ls1, u11)
    .add 26 (.ein [(12, [0]), (5, [0, 1, 2])] [2, 1]) 1 1,
    -- 1383: rdm1_f_vo += einsum("wx,wxia->ai", ls2, u12) * 0.5
    .add 26 (.ein [(13, [0, 1]), (11, [0, 1, 2, 3])] [3, 2]) 1 2,
    -- 1384: rdm1_f_vv = np.zeros((nvir, nvir), dtype=types[float])
    .zeros 31 [1, 1],
    -- 1385: rdm1_f_vv += einsum("ai,ib->ba", l1, t1)
    .add 31 (.ein [(6, [0, 1]), (7, [1, 2])] [2, 0]) 1 1,
    -- 1386: rdm1_f_vv += einsum("wai,wib->ba", lu11, u11)
    .add 31 (.ein [(4, [0, 1, 2]), (5, [0, 2, 3])] [3, 1]) 1 1,
    -- 1387: rdm1_f_vv += einsum("abij,ijca->cb", l2, t2) * -0.5
    .add 31 (.ein [(8, [0, 1, 2, 3]), (9, [2, 3, 4, 0])] [4, 1]) (-1) 2,
    -- 1388: rdm1_f_vv += einsum("wxai,wxib->ba", lu12, u12) * 0.5
    .add 31 (.ein [(10, [0, 1, 2, 3]), (11, [0, 1, 3, 4])] [4, 2]) 1 2
  ]
  ret := [(chars! "rdm1_f.oo", 22), (chars! "rdm1_f.ov", 30), (chars! "rdm1_f.vo", 26), (chars! "rdm1_f.vv", 31)]

/-- codegen/GCCSD_SD_1_2.py:1394-1892 `make_rdm2_f`. -/
def make_rdm2_f : GenFun where
  args := [chars! "g.boo", chars! "g.bvo", chars! "g.bov", chars! "g.bvv", chars! "l2", chars! "t2", chars! "t1", chars! "lu11", chars! "u11", chars! "lu12", chars! "u12", chars! "l1", chars! "ls1", chars! "ls2"]
  body := [
    -- 1396: gc = Namespace(
    .set 14 (.tr 0 [0, 2, 1]) 1 1,
    .set 15 (.tr 1 [0, 2, 1]) 1 1,
    .set 16 (.tr 2 [0, 2, 1]) 1 1,
    .set 17 (.tr 3 [0, 2, 1]) 1 1,
    -- 1403: delta_oo = np.eye(nocc)
    .eye 18 0,
    -- 1404: delta_vv = np.eye(nvir)
    .eye 19 1,
    -- 1407: x0 = np.zeros((nocc, nocc, nocc, nocc), dtype=types[float])
    .zeros 20 [0, 0, 0, 0],
    -- 1408: x0 += einsum("abij,klab->ijkl", l2, t2)
    .add 20 (.ein [(4, [0, 1, 2, 3]), (5, [4, 5, 0, 1])] [2, 3, 4, 5]) 1 1,
    -- 1409: x28 = np.zeros((nocc, nocc, nocc, nocc), dtype=types[float])
    .zeros 21 [0, 0, 0, 0],
    -- 1410: x28 += einsum("ijkl->jilk", x0) * -1
    .add 21 (.ein [(20, [0, 1, 2, 3])] [1, 0, 3, 2]) (-1) 1,
    -- 1411: x77 = np.zeros((nocc, nocc, nocc, nocc), dtype=types[float])
    .zeros 22 [0, 0, 0, 0],
    -- 1412: x77 += einsum("ijkl->jilk", x0) * -1
    .add 22 (.ein [(20, [0, 1, 2, 3])] [1, 0, 3, 2]) (-1) 1,
    -- 1413: x78 = np.zeros((nocc, nocc, nocc, nocc), dtype=types[float])
    .zeros 23 [0, 0, 0, 0],
    -- 1414: x78 += einsum("ijkl->jilk", x0) * -1
    .add 23 (.ein [(20, [0, 1, 2, 3])] [1, 0, 3, 2]) (-1) 1,
    -- 1415: rdm2_f_oooo = np.zeros((nocc, nocc, nocc, nocc), dtype=types[float])
    .zeros 24 [0, 0, 0, 0],
    -- 1416: rdm2_f_oooo += einsum("ijkl->jilk", x0) * 0.5
    .add 24 (.ein [(20, [0, 1, 2, 3])] [1, 0, 3, 2]) 1 2,
    -- 1417: del x0
    .del 20,
    -- 1418: x1 = np.zeros((nocc, nocc, nocc, nvir), dtype=types[float])
    .zeros 25 [0, 0, 0, 1],
    -- 1419: x1 += einsum("ia,bajk->jkib", t1, l2)
    .add 25 (.ein [(6, [0, 1]), (4, [2, 1, 3, 4])] [3, 4, 0, 2]) 1 1,
    -- 1420: x2 = np.zeros((nocc, nocc, nocc, nocc), dtype=types[float])
    .zeros 26 [0, 0, 0, 0],
    -- 1421: x2 += einsum("ia,jkla->jkil", t1, x1)
    .add 26 (.ein [(6, [0, 1]), (25, [2, 3, 4, 1])] [2, 3, 0, 4]) 1 1,
    -- 1422: x28 += einsum("ijkl->ijlk", x2) * 2
    .add 21 (.ein [(26, [0, 1, 2, 3])] [0, 1, 3, 2]) 2 1,
    -- 1423: x29 = np.zeros((nocc, nocc, nocc, nvir), dtype=types[float])
    .zeros 27 [0, 0, 0, 1],
    -- 1424: x29 += einsum("ia,ijkl->jkla", t1, x28) * 0.5
    .add 27 (.ein [(6, [0, 1]), (21, [0, 2, 3, 4])] [2, 3, 4, 1]) 1 2,
    -- 1425: del x28
    .del 21,
    -- 1426: rdm2_f_ovoo = np.zeros((nocc, nvir, nocc, nocc), dtype=types[float])
    .zeros 28 [0, 1, 0, 0],
    -- 1427: rdm2_f_ovoo += einsum("ijka->iakj", x29) * -1
    .add 28 (.ein [(27, [0, 1, 2, 3])] [0, 3, 2, 1]) (-1) 1,
    -- 1428: rdm2_f_vooo = np.zeros((nvir, nocc, nocc, nocc), dtype=types[float])
    .zeros 29 [1, 0, 0, 0],
    -- 1429: rdm2_f_vooo += einsum("ijka->aikj", x29)
    .add 29 (.ein [(27, [0, 1, 2, 3])] [3, 0, 2, 1]) 1 1,
    -- 1430: del x29
    .del 27,
    -- 1431: x77 += einsum("ijkl->ijlk", x2) * 2.0000000000000013
    .add 22 (.ein [(26, [0, 1, 2, 3])] [0, 1, 3, 2]) 2 1,
    -- 1432: rdm2_f_vvoo = np.zeros((nvir, nvir, nocc, nocc), dtype=types[float])
    .zeros 30 [1, 1, 0, 0],
    -- 1433: rdm2_f_vvoo += einsum("ijab,ijkl->balk", t2, x77) * -0.25
    .add 30 (.ein [(5, [0, 1, 2, 3]), (22, [0, 1, 4, 5])] [3, 2, 5, 4]) (-1) 4,
    -- 1434: del x77
    .del 22,
    -- 1435: x78 += einsum("ijkl->ijlk", x2) * 1.9999999999999987
    .add 23 (.ein [(26, [0, 1, 2, 3])] [0, 1, 3, 2]) 2 1,
    -- 1436: x79 = np.zeros((nocc, nocc, nocc, nvir), dtype=types[float])
    .zeros 31 [0, 0, 0, 1],
    -- 1437: x79 += einsum("ia,ijkl->jlka", t1, x78) * -1
    .add 31 (.ein [(6, [0, 1]), (23, [0, 2, 3, 4])] [2, 4, 3, 1]) (-1) 1,
    -- 1438: del x78
    .del 23,
    -- 1439: rdm2_f_vvoo += einsum("ia,ijkb->bakj", t1, x79) * 0.5000000000000003
    .add 30 (.ein [(6, [0, 1]), (31, [0, 2, 3, 4])] [4, 1, 3, 2]) 1 2,
    -- 1440: del x79
    .del 31,
    -- 1441: rdm2_f_oooo -= einsum("ijkl->ijlk", x2)
    .add 24 (.ein [(26, [0, 1, 2, 3])] [0, 1, 3, 2]) (-1) 1,
    -- 1442: del x2
    .del 26,
    -- 1443: x13 = np.zeros((nocc, nocc, nocc, nvir), dtype=types[float])
    .zeros 32 [0, 0, 0, 1],
    -- 1444: x13 -= einsum("ijab,kjlb->klia", t2, x1)
    .add 32 (.ein [(5, [0, 1, 2, 3]), (25, [4, 1, 5, 3])] [4, 5, 0, 2]) (-1) 1,
    -- 1445: x20 = np.zeros((nocc, nocc, nocc, nvir), dtype=types[float])
    .zeros 33 [0, 0, 0, 1],
    -- 1446: x20 += einsum("ijka->ijka", x13)
    .add 33 (.ein [(32, [0, 1, 2, 3])] [0, 1, 2, 3]) 1 1,
    -- 1447: x34 = np.zeros((nocc, nocc, nocc, nvir), dtype=types[float])
    .zeros 34 [0, 0, 0, 1],
    -- 1448: x34 -= einsum("ijka->ijka", x13)
    .add 34 (.ein [(32, [0, 1, 2, 3])] [0, 1, 2, 3]) (-1) 1,
    -- 1449: x60 = np.zeros((nocc, nocc, nvir, nvir), dtype=types[float])
    .zeros 35 [0, 0, 1, 1],
    -- 1450: x60 += einsum("ia,ijkb->jkab", t1, x13)
    .add 35 (.ein [(6, [0, 1]), (32, [0, 2, 3, 4])] [2, 3, 1, 4]) 1 1,
    -- 1451: del x13
    .del 32,
    -- 1452: x67 = np.zeros((nocc, nocc, nvir, nvir), dtype=types[float])
    .zeros 36 [0, 0, 1, 1],
    -- 1453: x67 -= einsum("ijab->ijab", x60)
    .add 36 (.ein [(35, [0, 1, 2, 3])] [0, 1, 2, 3]) (-1) 1,
    -- 1454: del x60
    .del 35,
    -- 1455: x24 = np.zeros((nocc, nvir), dtype=types[float])
    .zeros 37 [0, 1],
    -- 1456: x24 -= einsum("ijab,ijkb->ka", t2, x1)
    .add 37 (.ein [(5, [0, 1, 2, 3]), (25, [0, 1, 4, 3])] [4, 2]) (-1) 1,
    -- 1457: x26 = np.zeros((nocc, nvir), dtype=types[float])
    .zeros 38 [0, 1],
    -- 1458: x26 += einsum("ia->ia", x24)
    .add 38 (.ein [(37, [0, 1])] [0, 1]) 1 1,
    -- 1459: x53 = np.zeros((nocc, nvir), dtype=types[float])
    .zeros 39 [0, 1],
    -- 1460: x53 += einsum("ia->ia", x24)
    .add 39 (.ein [(37, [0, 1])] [0, 1]) 1 1,
    -- 1461: del x24
    .del 37,
    -- 1462: x37 = np.zeros((nocc, nocc, nvir, nvir), dtype=types[float])
    .zeros 40 [0, 0, 1, 1],
    -- 1463: x37 += einsum("ia,jikb->jkba", t1, x1)
    .add 40 (.ein [(6, [0, 1]), (25, [2, 0, 3, 4])] [2, 3, 4, 1]) 1 1,
    -- 1464: x88 = np.zeros((nocc, nvir, nvir, nvir), dtype=types[float])
    .zeros 41 [0, 1, 1, 1],
    -- 1465: x88 -= einsum("ia,ijbc->jbca", t1, x37)
    .add 41 (.ein [(6, [0, 1]), (40, [0, 2, 3, 4])] [2, 3, 4, 1]) (-1) 1,
    -- 1466: rdm2_f_vvov = np.zeros((nvir, nvir, nocc, nvir), dtype=types[float])
    .zeros 42 [1, 1, 0, 1],
    -- 1467: rdm2_f_vvov -= einsum("iabc->cbia", x88)
    .add 42 (.ein [(41, [0, 1, 2, 3])] [3, 2, 0, 1]) (-1) 1,
    -- 1468: rdm2_f_vvvo = np.zeros((nvir, nvir, nvir, nocc), dtype=types[float])
    .zeros 43 [1, 1, 1, 0],
    -- 1469: rdm2_f_vvvo += einsum("iabc->cbai", x88)
    .add 43 (.ein [(41, [0, 1, 2, 3])] [3, 2, 1, 0]) 1 1,
    -- 1470: del x88
    .del 41,
    -- 1471: rdm2_f_ovov = np.zeros((nocc, nvir, nocc, nvir), dtype=types[float])
    .zeros 44 [0, 1, 0, 1],
    -- 1472: rdm2_f_ovov += einsum("ijab->ibja", x37)
    .add 44 (.ein [(40, [0, 1, 2, 3])] [0, 3, 1, 2]) 1 1,
    -- 1473: rdm2_f_ovvo = np.zeros((nocc, nvir, nvir, nocc), dtype=types[float])
    .zeros 45 [0, 1, 1, 0],
    -- 1474: rdm2_f_ovvo -= einsum("ijab->ibaj", x37)
    .add 45 (.ein [(40, [0, 1, 2, 3])] [0, 3, 2, 1]) (-1) 1,
    -- 1475: rdm2_f_voov = np.zeros((nvir, nocc, nocc, nvir), dtype=types[float])
    .zeros 46 [1, 0, 0, 1],
    -- 1476: rdm2_f_voov -= einsum("ijab->bija", x37)
    .add 46 (.ein [(40, [0, 1, 2, 3])] [3, 0, 1, 2]) (-1) 1,
    -- 1477: rdm2_f_vovo = np.zeros((nvir, nocc, nvir, nocc), dtype=types[float])
    .zeros 47 [1, 0, 1, 0],
    -- 1478: rdm2_f_vovo += einsum("ijab->biaj", x37)
    .add 47 (.ein [(40, [0, 1, 2, 3])] [3, 0, 2, 1]) 1 1,
    -- 1479: del x37
    .del 40,
    -- 1480: x87 = np.zeros((nocc, nvir, nvir, nvir), dtype=types[float])
    .zeros 48 [0, 1, 1, 1],
    -- 1481: x87 += einsum("ijab,ijkc->kcab", t2, x1)
    .add 48 (.ein [(5, [0, 1, 2, 3]), (25, [0, 1, 4, 5])] [4, 5, 2, 3]) 1 1,
    -- 1482: rdm2_f_vvov += einsum("iabc->bcia", x87) * 0.5
    .add 42 (.ein [(48, [0, 1, 2, 3])] [2, 3, 0, 1]) 1 2,
    -- 1483: rdm2_f_vvvo += einsum("iabc->bcai", x87) * -0.5
    .add 43 (.ein [(48, [0, 1, 2, 3])] [2, 3, 1, 0]) (-1) 2,
    -- 1484: del x87
    .del 48,
    -- 1485: rdm2_f_ooov = np.zeros((nocc, nocc, nocc, nvir), dtype=types[float])
    .zeros 49 [0, 0, 0, 1],
    -- 1486: rdm2_f_ooov -= einsum("ijka->jika", x1)
    .add 49 (.ein [(25, [0, 1, 2, 3])] [1, 0, 2, 3]) (-1) 1,
    -- 1487: rdm2_f_oovo = np.zeros((nocc, nocc, nvir, nocc), dtype=types[float])
    .zeros 50 [0, 0, 1, 0],
    -- 1488: rdm2_f_oovo += einsum("ijka->jiak", x1)
    .add 50 (.ein [(25, [0, 1, 2, 3])] [1, 0, 3, 2]) 1 1,
    -- 1489: del x1
    .del 25,
    -- 1490: x3 = np.zeros((nocc, nocc), dtype=types[float])
    .zeros 51 [0, 0],
    -- 1491: x3 += einsum("wai,wja->ij", lu11, u11)
    .add 51 (.ein [(7, [0, 1, 2]), (8, [0, 3, 1])] [2, 3]) 1 1,
    -- 1492: x15 = np.zeros((nocc, nvir), dtype=types[float])
    .zeros 52 [0, 1],
    -- 1493: x15 += einsum("ia,ij->ja", t1, x3)
    .add 52 (.ein [(6, [0, 1]), (51, [0, 2])] [2, 1]) 1 1,
    -- 1494: x18 = np.zeros((nocc, nvir), dtype=types[float])
    .zeros 53 [0, 1],
    -- 1495: x18 += einsum("ia->ia", x15)
    .add 53 (.ein [(52, [0, 1])] [0, 1]) 1 1,
    -- 1496: del x15
    .del 52,
    -- 1497: x19 = np.zeros((nocc, nocc), dtype=types[float])
    .zeros 54 [0, 0],
    -- 1498: x19 += einsum("ij->ij", x3)
    .add 54 (.ein [(51, [0, 1])] [0, 1]) 1 1,
    -- 1499: x75 = np.zeros((nocc, nocc, nvir, nvir), dtype=types[float])
    .zeros 55 [0, 0, 1, 1],
    -- 1500: x75 += einsum("ij,kiab->kjab", x3, t2)
    .add 55 (.ein [(51, [0, 1]), (5, [2, 0, 3, 4])] [2, 1, 3, 4]) 1 1,
    -- 1501: x76 = np.zeros((nocc, nocc, nvir, nvir), dtype=types[float])
    .zeros 56 [0, 0, 1, 1],
    -- 1502: x76 += einsum("ijab->ijba", x75)
    .add 56 (.ein [(55, [0, 1, 2, 3])] [0, 1, 3, 2]) 1 1,
    -- 1503: del x75
    .del 55,
    -- 1504: x81 = np.zeros((nocc, nocc), dtype=types[float])
    .zeros 57 [0, 0],
    -- 1505: x81 += einsum("ij->ij", x3)
    .add 57 (.ein [(51, [0, 1])] [0, 1]) 1 1,
    -- 1506: rdm2_f_oooo -= einsum("ij,kl->ikjl", delta_oo, x3)
    .add 24 (.ein [(18, [0, 1]), (51, [2, 3])] [0, 2, 1, 3]) (-1) 1,
    -- 1507: rdm2_f_oooo += einsum("ij,kl->iklj", delta_oo, x3)
    .add 24 (.ein [(18, [0, 1]), (51, [2, 3])] [0, 2, 3, 1]) 1 1,
    -- 1508: rdm2_f_oooo += einsum("ij,kl->kjil", delta_oo, x3)
    .add 24 (.ein [(18, [0, 1]), (51, [2, 3])] [2, 1, 0, 3]) 1 1,
    -- 1509: rdm2_f_oooo -= einsum("ij,kl->kjli", delta_oo, x3)
    .add 24 (.ein [(18, [0, 1]), (51, [2, 3])] [2, 1, 3, 0]) (-1) 1,
    -- 1510: del x3
    .del 51,
    -- 1511: x4 = np.zeros((nocc, nocc), dtype=types[float])
    .zeros 58 [0, 0],
    -- 1512: x4 += einsum("wxai,wxja->ij", lu12, u12)
    .add 58 (.ein [(9, [0, 1, 2, 3]), (10, [0, 1, 4, 2])] [3, 4]) 1 1,
    -- 1513: x6 = np.zeros((nocc, nocc), dtype=types[float])
    .zeros 59 [0, 0],
    -- 1514: x6 += einsum("ij->ij", x4)
    .add 59 (.ein [(58, [0, 1])] [0, 1]) 1 1,
    -- 1515: x51 = np.zeros((nocc, nocc), dtype=types[float])
    .zeros 60 [0, 0],
    -- 1516: x51 += einsum("ij->ij", x4)
    .add 60 (.ein [(58, [0, 1])] [0, 1]) 1 1,
    -- 1517: del x4
    .del 58,
    -- 1518: x5 = np.zeros((nocc, nocc), dtype=types[float])
    .zeros 61 [0, 0],
    -- 1519: x5 += einsum("abij,kjab->ik", l2, t2)
    .add 61 (.ein [(4, [0, 1, 2, 3]), (5, [4, 3, 0, 1])] [2, 4]) 1 1,
    -- 1520: x6 += einsum("ij->ij", x5)
    .add 59 (.ein [(61, [0, 1])] [0, 1]) 1 1,
    -- 1521: x25 = np.zeros((nocc, nvir), dtype=types[float])
    .zeros 62 [0, 1],
    -- 1522: x25 += einsum("ia,ij->ja", t1, x6)
    .add 62 (.ein [(6, [0, 1]), (59, [0, 2])] [2, 1]) 1 1,
    -- 1523: x26 += einsum("ia->ia", x25)
    .add 38 (.ein [(62, [0, 1])] [0, 1]) 1 1,
    -- 1524: del x25
    .del 62,
    -- 1525: x27 = np.zeros((nocc, nocc, nocc, nvir), dtype=types[float])
    .zeros 63 [0, 0, 0, 1],
    -- 1526: x27 += einsum("ia,jk->jika", t1, x6) * -0.5
    .add 63 (.ein [(6, [0, 1]), (59, [2, 3])] [2, 0, 3, 1]) (-1) 2,
    -- 1527: x35 = np.zeros((nocc, nocc, nocc, nvir), dtype=types[float])
    .zeros 64 [0, 0, 0, 1],
    -- 1528: x35 += einsum("ia,jk->jika", t1, x6) * 0.5
    .add 64 (.ein [(6, [0, 1]), (59, [2, 3])] [2, 0, 3, 1]) 1 2,
    -- 1529: x55 = np.zeros((nocc, nocc, nvir, nvir), dtype=types[float])
    .zeros 65 [0, 0, 1, 1],
    -- 1530: x55 += einsum("ij,ikab->jkab", x6, t2) * 0.5
    .add 65 (.ein [(59, [0, 1]), (5, [0, 2, 3, 4])] [1, 2, 3, 4]) 1 2,
    -- 1531: rdm2_f_vvoo += einsum("ijab->abji", x55)
    .add 30 (.ein [(65, [0, 1, 2, 3])] [2, 3, 1, 0]) 1 1,
    -- 1532: rdm2_f_vvoo += einsum("ijab->abij", x55) * -1
    .add 30 (.ein [(65, [0, 1, 2, 3])] [2, 3, 0, 1]) (-1) 1,
    -- 1533: del x55
    .del 65,
    -- 1534: rdm2_f_oooo += einsum("ij,kl->jkil", delta_oo, x6) * -0.5
    .add 24 (.ein [(18, [0, 1]), (59, [2, 3])] [1, 2, 0, 3]) (-1) 2,
    -- 1535: rdm2_f_oooo += einsum("ij,kl->jkli", delta_oo, x6) * 0.5
    .add 24 (.ein [(18, [0, 1]), (59, [2, 3])] [1, 2, 3, 0]) 1 2,
    -- 1536: rdm2_f_oooo += einsum("ij,kl->kijl", delta_oo, x6) * 0.5
    .add 24 (.ein [(18, [0, 1]), (59, [2, 3])] [2, 0, 1, 3]) 1 2,
    -- 1537: rdm2_f_oooo += einsum("ij,kl->kilj", delta_oo, x6) * -0.5
    .add 24 (.ein [(18, [0, 1]), (59, [2, 3])] [2, 0, 3, 1]) (-1) 2,
    -- 1538: del x6
    .del 59,
    -- 1539: x51 += einsum("ij->ij", x5)
    .add 60 (.ein [(61, [0, 1])] [0, 1]) 1 1,
    -- 1540: del x5
    .del 61,
    -- 1541: x52 = np.zeros((nocc, nvir), dtype=types[float])
    .zeros 66 [0, 1],
    -- 1542: x52 += einsum("ia,ij->ja", t1, x51)
    .add 66 (.ein [(6, [0, 1]), (60, [0, 2])] [2, 1]) 1 1,
    -- 1543: del x51
    .del 60,
    -- 1544: x53 += einsum("ia->ia", x52)
    .add 39 (.ein [(66, [0, 1])] [0, 1]) 1 1,
    -- 1545: del x52
    .del 66,
    -- 1546: x7 = np.zeros((nocc, nocc), dtype=types[float])
    .zeros 67 [0, 0],
    -- 1547: x7 += einsum("ai,ja->ij", l1, t1)
    .add 67 (.ein [(11, [0, 1]), (6, [2, 0])] [1, 2]) 1 1,
    -- 1548: x19 += einsum("ij->ij", x7)
    .add 54 (.ein [(67, [0, 1])] [0, 1]) 1 1,
    -- 1549: x20 -= einsum("ia,jk->jika", t1, x19)
    .add 33 (.ein [(6, [0, 1]), (54, [2, 3])] [2, 0, 3, 1]) (-1) 1,
    -- 1550: x34 += einsum("ia,jk->jika", t1, x19)
    .add 34 (.ein [(6, [0, 1]), (54, [2, 3])] [2, 0, 3, 1]) 1 1,
    -- 1551: del x19
    .del 54,
    -- 1552: x32 = np.zeros((nocc, nvir), dtype=types[float])
    .zeros 68 [0, 1],
    -- 1553: x32 += einsum("ia,ij->ja", t1, x7)
    .add 68 (.ein [(6, [0, 1]), (67, [0, 2])] [2, 1]) 1 1,
    -- 1554: x33 = np.zeros((nocc, nvir), dtype=types[float])
    .zeros 69 [0, 1],
    -- 1555: x33 += einsum("ia->ia", x32) * -1
    .add 69 (.ein [(68, [0, 1])] [0, 1]) (-1) 1,
    -- 1556: del x32
    .del 68,
    -- 1557: x74 = np.zeros((nocc, nocc, nvir, nvir), dtype=types[float])
    .zeros 70 [0, 0, 1, 1],
    -- 1558: x74 += einsum("ij,kiab->jkab", x7, t2)
    .add 70 (.ein [(67, [0, 1]), (5, [2, 0, 3, 4])] [1, 2, 3, 4]) 1 1,
    -- 1559: x76 -= einsum("ijab->ijba", x74)
    .add 56 (.ein [(70, [0, 1, 2, 3])] [0, 1, 3, 2]) (-1) 1,
    -- 1560: del x74
    .del 70,
    -- 1561: rdm2_f_vvoo -= einsum("ijab->baij", x76)
    .add 30 (.ein [(56, [0, 1, 2, 3])] [3, 2, 0, 1]) (-1) 1,
    -- 1562: rdm2_f_vvoo += einsum("ijab->baji", x76)
    .add 30 (.ein [(56, [0, 1, 2, 3])] [3, 2, 1, 0]) 1 1,
    -- 1563: del x76
    .del 56,
    -- 1564: x81 += einsum("ij->ij", x7)
    .add 57 (.ein [(67, [0, 1])] [0, 1]) 1 1,
    -- 1565: x82 = np.zeros((nocc, nvir), dtype=types[float])
    .zeros 71 [0, 1],
    -- 1566: x82 += einsum("ia,ij->ja", t1, x81)
    .add 71 (.ein [(6, [0, 1]), (57, [0, 2])] [2, 1]) 1 1,
    -- 1567: x83 = np.zeros((nocc, nvir), dtype=types[float])
    .zeros 72 [0, 1],
    -- 1568: x83 += einsum("ia->ia", x82)
    .add 72 (.ein [(71, [0, 1])] [0, 1]) 1 1,
    -- 1569: del x82
    .del 71,
    -- 1570: x84 = np.zeros((nocc, nvir), dtype=types[float])
    .zeros 73 [0, 1],
    -- 1571: x84 += einsum("ia,ij->ja", t1, x81) * 2
    .add 73 (.ein [(6, [0, 1]), (57, [0, 2])] [2, 1]) 2 1,
    -- 1572: del x81
    .del 57,
    -- 1573: x85 = np.zeros((nocc, nvir), dtype=types[float])
    .zeros 74 [0, 1],
    -- 1574: x85 += einsum("ia->ia", x84)
    .add 74 (.ein [(73, [0, 1])] [0, 1]) 1 1,
    -- 1575: del x84
    .del 73,
    -- 1576: rdm2_f_oooo -= einsum("ij,kl->jkil", delta_oo, x7)
    .add 24 (.ein [(18, [0, 1]), (67, [2, 3])] [1, 2, 0, 3]) (-1) 1,
    -- 1577: rdm2_f_oooo += einsum("ij,kl->kjil", delta_oo, x7)
    .add 24 (.ein [(18, [0, 1]), (67, [2, 3])] [2, 1, 0, 3]) 1 1,
    -- 1578: rdm2_f_oooo += einsum("ij,kl->jkli", delta_oo, x7)
    .add 24 (.ein [(18, [0, 1]), (67, [2, 3])] [1, 2, 3, 0]) 1 1,
    -- 1579: rdm2_f_oooo -= einsum("ij,kl->kjli", delta_oo, x7)
    .add 24 (.ein [(18, [0, 1]), (67, [2, 3])] [2, 1, 3, 0]) (-1) 1,
    -- 1580: del x7
    .del 67,
    -- 1581: x8 = np.zeros((nocc, nocc, nocc, nvir), dtype=types[float])
    .zeros 75 [0, 0, 0, 1],
    -- 1582: x8 += einsum("ai,jkba->ijkb", l1, t2)
    .add 75 (.ein [(11, [0, 1]), (5, [2, 3, 4, 0])] [1, 2, 3, 4]) 1 1,
    -- 1583: x70 = np.zeros((nocc, nocc, nvir, nvir), dtype=types[float])
    .zeros 76 [0, 0, 1, 1],
    -- 1584: x70 += einsum("ia,ijkb->jkab", t1, x8)
    .add 76 (.ein [(6, [0, 1]), (75, [0, 2, 3, 4])] [2, 3, 1, 4]) 1 1,
    -- 1585: x73 = np.zeros((nocc, nocc, nvir, nvir), dtype=types[float])
    .zeros 77 [0, 0, 1, 1],
    -- 1586: x73 += einsum("ijab->ijab", x70)
    .add 77 (.ein [(76, [0, 1, 2, 3])] [0, 1, 2, 3]) 1 1,
    -- 1587: del x70
    .del 76,
    -- 1588: rdm2_f_ovoo -= einsum("ijka->iakj", x8)
    .add 28 (.ein [(75, [0, 1, 2, 3])] [0, 3, 2, 1]) (-1) 1,
    -- 1589: rdm2_f_vooo += einsum("ijka->aikj", x8)
    .add 29 (.ein [(75, [0, 1, 2, 3])] [3, 0, 2, 1]) 1 1,
    -- 1590: del x8
    .del 75,
    -- 1591: x9 = np.zeros((nbos, nocc, nocc), dtype=types[float])
    .zeros 78 [2, 0, 0],
    -- 1592: x9 += einsum("ia,waj->wji", t1, lu11)
    .add 78 (.ein [(6, [0, 1]), (7, [2, 1, 3])] [2, 3, 0]) 1 1,
    -- 1593: x10 = np.zeros((nocc, nocc, nocc, nvir), dtype=types[float])
    .zeros 79 [0, 0, 0, 1],
    -- 1594: x10 += einsum("wia,wjk->jkia", u11, x9)
    .add 79 (.ein [(8, [0, 1, 2]), (78, [0, 3, 4])] [3, 4, 1, 2]) 1 1,
    -- 1595: x20 += einsum("ijka->ijka", x10)
    .add 33 (.ein [(79, [0, 1, 2, 3])] [0, 1, 2, 3]) 1 1,
    -- 1596: x34 -= einsum("ijka->ijka", x10)
    .add 34 (.ein [(79, [0, 1, 2, 3])] [0, 1, 2, 3]) (-1) 1,
    -- 1597: del x10
    .del 79,
    -- 1598: x16 = np.zeros((nbos, nocc, nocc), dtype=types[float])
    .zeros 80 [2, 0, 0],
    -- 1599: x16 += einsum("wij->wij", x9)
    .add 80 (.ein [(78, [0, 1, 2])] [0, 1, 2]) 1 1,
    -- 1600: x62 = np.zeros((nbos, nocc, nvir), dtype=types[float])
    .zeros 81 [2, 0, 1],
    -- 1601: x62 += einsum("ia,wij->wja", t1, x9)
    .add 81 (.ein [(6, [0, 1]), (78, [2, 0, 3])] [2, 3, 1]) 1 1,
    -- 1602: x63 = np.zeros((nbos, nocc, nvir), dtype=types[float])
    .zeros 82 [2, 0, 1],
    -- 1603: x63 -= einsum("wia->wia", x62)
    .add 82 (.ein [(81, [0, 1, 2])] [0, 1, 2]) (-1) 1,
    -- 1604: del x62
    .del 81,
    -- 1605: x80 = np.zeros((nocc, nvir), dtype=types[float])
    .zeros 83 [0, 1],
    -- 1606: x80 += einsum("wia,wij->ja", u11, x9)
    .add 83 (.ein [(8, [0, 1, 2]), (78, [0, 1, 3])] [3, 2]) 1 1,
    -- 1607: del x9
    .del 78,
    -- 1608: x83 += einsum("ia->ia", x80)
    .add 72 (.ein [(83, [0, 1])] [0, 1]) 1 1,
    -- 1609: x85 += einsum("ia->ia", x80) * 2
    .add 74 (.ein [(83, [0, 1])] [0, 1]) 2 1,
    -- 1610: del x80
    .del 83,
    -- 1611: x11 = np.zeros((nbos, nocc, nocc), dtype=types[float])
    .zeros 84 [2, 0, 0],
    -- 1612: x11 += einsum("wia,wxaj->xji", u11, lu12)
    .add 84 (.ein [(8, [0, 1, 2]), (9, [0, 3, 2, 4])] [3, 4, 1]) 1 1,
    -- 1613: x12 = np.zeros((nocc, nocc, nocc, nvir), dtype=types[float])
    .zeros 85 [0, 0, 0, 1],
    -- 1614: x12 += einsum("wia,wjk->jika", u11, x11)
    .add 85 (.ein [(8, [0, 1, 2]), (84, [0, 3, 4])] [3, 1, 4, 2]) 1 1,
    -- 1615: x20 -= einsum("ijka->ijka", x12)
    .add 33 (.ein [(85, [0, 1, 2, 3])] [0, 1, 2, 3]) (-1) 1,
    -- 1616: x34 += einsum("ijka->ijka", x12)
    .add 34 (.ein [(85, [0, 1, 2, 3])] [0, 1, 2, 3]) 1 1,
    -- 1617: del x12
    .del 85,
    -- 1618: rdm2_f_vooo -= einsum("ijka->aijk", x34)
    .add 29 (.ein [(34, [0, 1, 2, 3])] [3, 0, 1, 2]) (-1) 1,
    -- 1619: rdm2_f_vooo += einsum("ijka->aikj", x34)
    .add 29 (.ein [(34, [0, 1, 2, 3])] [3, 0, 2, 1]) 1 1,
    -- 1620: del x34
    .del 34,
    -- 1621: x16 += einsum("wij->wij", x11)
    .add 80 (.ein [(84, [0, 1, 2])] [0, 1, 2]) 1 1,
    -- 1622: x17 = np.zeros((nocc, nvir), dtype=types[float])
    .zeros 86 [0, 1],
    -- 1623: x17 += einsum("wia,wij->ja", u11, x16)
    .add 86 (.ein [(8, [0, 1, 2]), (80, [0, 1, 3])] [3, 2]) 1 1,
    -- 1624: del x16
    .del 80,
    -- 1625: x18 += einsum("ia->ia", x17)
    .add 53 (.ein [(86, [0, 1])] [0, 1]) 1 1,
    -- 1626: del x17
    .del 86,
    -- 1627: x58 = np.zeros((nbos, nocc, nvir), dtype=types[float])
    .zeros 87 [2, 0, 1],
    -- 1628: x58 += einsum("ia,wij->wja", t1, x11)
    .add 87 (.ein [(6, [0, 1]), (84, [2, 0, 3])] [2, 3, 1]) 1 1,
    -- 1629: x59 = np.zeros((nocc, nocc, nvir, nvir), dtype=types[float])
    .zeros 88 [0, 0, 1, 1],
    -- 1630: x59 += einsum("wia,wjb->ijba", u11, x58)
    .add 88 (.ein [(8, [0, 1, 2]), (87, [0, 3, 4])] [1, 3, 4, 2]) 1 1,
    -- 1631: del x58
    .del 87,
    -- 1632: x67 += einsum("ijab->ijab", x59)
    .add 36 (.ein [(88, [0, 1, 2, 3])] [0, 1, 2, 3]) 1 1,
    -- 1633: del x59
    .del 88,
    -- 1634: x65 = np.zeros((nocc, nvir), dtype=types[float])
    .zeros 89 [0, 1],
    -- 1635: x65 += einsum("wia,wij->ja", u11, x11)
    .add 89 (.ein [(8, [0, 1, 2]), (84, [0, 1, 3])] [3, 2]) 1 1,
    -- 1636: del x11
    .del 84,
    -- 1637: x66 = np.zeros((nocc, nvir), dtype=types[float])
    .zeros 90 [0, 1],
    -- 1638: x66 -= einsum("ia->ia", x65)
    .add 90 (.ein [(89, [0, 1])] [0, 1]) (-1) 1,
    -- 1639: del x65
    .del 89,
    -- 1640: x14 = np.zeros((nocc, nvir), dtype=types[float])
    .zeros 91 [0, 1],
    -- 1641: x14 += einsum("ai,jiba->jb", l1, t2)
    .add 91 (.ein [(11, [0, 1]), (5, [2, 1, 3, 0])] [2, 3]) 1 1,
    -- 1642: x18 -= einsum("ia->ia", x14)
    .add 53 (.ein [(91, [0, 1])] [0, 1]) (-1) 1,
    -- 1643: x20 += einsum("ij,ka->jika", delta_oo, x18)
    .add 33 (.ein [(18, [0, 1]), (53, [2, 3])] [1, 0, 2, 3]) 1 1,
    -- 1644: rdm2_f_ovoo -= einsum("ijka->iajk", x20)
    .add 28 (.ein [(33, [0, 1, 2, 3])] [0, 3, 1, 2]) (-1) 1,
    -- 1645: rdm2_f_ovoo += einsum("ijka->iakj", x20)
    .add 28 (.ein [(33, [0, 1, 2, 3])] [0, 3, 2, 1]) 1 1,
    -- 1646: del x20
    .del 33,
    -- 1647: rdm2_f_vooo += einsum("ij,ka->aijk", delta_oo, x18)
    .add 29 (.ein [(18, [0, 1]), (53, [2, 3])] [3, 0, 1, 2]) 1 1,
    -- 1648: rdm2_f_vooo -= einsum("ij,ka->aikj", delta_oo, x18)
    .add 29 (.ein [(18, [0, 1]), (53, [2, 3])] [3, 0, 2, 1]) (-1) 1,
    -- 1649: del x18
    .del 53,
    -- 1650: x66 += einsum("ia->ia", x14)
    .add 90 (.ein [(91, [0, 1])] [0, 1]) 1 1,
    -- 1651: del x14
    .del 91,
    -- 1652: x67 += einsum("ia,jb->ijab", t1, x66)
    .add 36 (.ein [(6, [0, 1]), (90, [2, 3])] [0, 2, 1, 3]) 1 1,
    -- 1653: del x66
    .del 90,
    -- 1654: x21 = np.zeros((nbos, nbos, nocc, nocc), dtype=types[float])
    .zeros 92 [2, 2, 0, 0],
    -- 1655: x21 += einsum("ia,wxaj->wxji", t1, lu12)
    .add 92 (.ein [(6, [0, 1]), (9, [2, 3, 1, 4])] [2, 3, 4, 0]) 1 1,
    -- 1656: x22 = np.zeros((nocc, nocc, nocc, nvir), dtype=types[float])
    .zeros 93 [0, 0, 0, 1],
    -- 1657: x22 += einsum("wxia,wxjk->jkia", u12, x21)
    .add 93 (.ein [(10, [0, 1, 2, 3]), (92, [0, 1, 4, 5])] [4, 5, 2, 3]) 1 1,
    -- 1658: x27 += einsum("ijka->ijka", x22) * 0.5
    .add 63 (.ein [(93, [0, 1, 2, 3])] [0, 1, 2, 3]) 1 2,
    -- 1659: x35 += einsum("ijka->ijka", x22) * -0.5
    .add 64 (.ein [(93, [0, 1, 2, 3])] [0, 1, 2, 3]) (-1) 2,
    -- 1660: rdm2_f_vooo += einsum("ijka->aijk", x35) * -1
    .add 29 (.ein [(64, [0, 1, 2, 3])] [3, 0, 1, 2]) (-1) 1,
    -- 1661: rdm2_f_vooo += einsum("ijka->aikj", x35)
    .add 29 (.ein [(64, [0, 1, 2, 3])] [3, 0, 2, 1]) 1 1,
    -- 1662: del x35
    .del 64,
    -- 1663: x50 = np.zeros((nocc, nocc, nvir, nvir), dtype=types[float])
    .zeros 94 [0, 0, 1, 1],
    -- 1664: x50 += einsum("ia,ijkb->jkab", t1, x22)
    .add 94 (.ein [(6, [0, 1]), (93, [0, 2, 3, 4])] [2, 3, 1, 4]) 1 1,
    -- 1665: del x22
    .del 93,
    -- 1666: x54 = np.zeros((nocc, nocc, nvir, nvir), dtype=types[float])
    .zeros 95 [0, 0, 1, 1],
    -- 1667: x54 += einsum("ijab->ijab", x50) * 0.5
    .add 95 (.ein [(94, [0, 1, 2, 3])] [0, 1, 2, 3]) 1 2,
    -- 1668: del x50
    .del 94,
    -- 1669: x23 = np.zeros((nocc, nvir), dtype=types[float])
    .zeros 96 [0, 1],
    -- 1670: x23 += einsum("wxia,wxij->ja", u12, x21)
    .add 96 (.ein [(10, [0, 1, 2, 3]), (92, [0, 1, 2, 4])] [4, 3]) 1 1,
    -- 1671: x26 += einsum("ia->ia", x23)
    .add 38 (.ein [(96, [0, 1])] [0, 1]) 1 1,
    -- 1672: x27 += einsum("ij,ka->jika", delta_oo, x26) * 0.5
    .add 63 (.ein [(18, [0, 1]), (38, [2, 3])] [1, 0, 2, 3]) 1 2,
    -- 1673: rdm2_f_ovoo += einsum("ijka->iajk", x27) * -1
    .add 28 (.ein [(63, [0, 1, 2, 3])] [0, 3, 1, 2]) (-1) 1,
    -- 1674: rdm2_f_ovoo += einsum("ijka->iakj", x27)
    .add 28 (.ein [(63, [0, 1, 2, 3])] [0, 3, 2, 1]) 1 1,
    -- 1675: del x27
    .del 63,
    -- 1676: rdm2_f_vooo += einsum("ij,ka->aijk", delta_oo, x26) * 0.5
    .add 29 (.ein [(18, [0, 1]), (38, [2, 3])] [3, 0, 1, 2]) 1 2,
    -- 1677: rdm2_f_vooo += einsum("ij,ka->aikj", delta_oo, x26) * -0.5
    .add 29 (.ein [(18, [0, 1]), (38, [2, 3])] [3, 0, 2, 1]) (-1) 2,
    -- 1678: del x26
    .del 38,
    -- 1679: x53 += einsum("ia->ia", x23)
    .add 39 (.ein [(96, [0, 1])] [0, 1]) 1 1,
    -- 1680: del x23
    .del 96,
    -- 1681: x54 += einsum("ia,jb->ijab", t1, x53) * 0.5
    .add 95 (.ein [(6, [0, 1]), (39, [2, 3])] [0, 2, 1, 3]) 1 2,
    -- 1682: del x53
    .del 39,
    -- 1683: x56 = np.zeros((nbos, nocc, nvir), dtype=types[float])
    .zeros 97 [2, 0, 1],
    -- 1684: x56 += einsum("wia,wxij->xja", u11, x21)
    .add 97 (.ein [(8, [0, 1, 2]), (92, [0, 3, 1, 4])] [3, 4, 2]) 1 1,
    -- 1685: del x21
    .del 92,
    -- 1686: x57 = np.zeros((nocc, nocc, nvir, nvir), dtype=types[float])
    .zeros 98 [0, 0, 1, 1],
    -- 1687: x57 += einsum("wia,wjb->jiab", u11, x56)
    .add 98 (.ein [(8, [0, 1, 2]), (97, [0, 3, 4])] [3, 1, 2, 4]) 1 1,
    -- 1688: del x56
    .del 97,
    -- 1689: x67 += einsum("ijab->ijab", x57)
    .add 36 (.ein [(98, [0, 1, 2, 3])] [0, 1, 2, 3]) 1 1,
    -- 1690: del x57
    .del 98,
    -- 1691: x30 = np.zeros((nocc, nvir), dtype=types[float])
    .zeros 99 [0, 1],
    -- 1692: x30 += einsum("w,wia->ia", ls1, u11)
    .add 99 (.ein [(12, [0]), (8, [0, 1, 2])] [1, 2]) 1 1,
    -- 1693: x33 += einsum("ia->ia", x30)
    .add 69 (.ein [(99, [0, 1])] [0, 1]) 1 1,
    -- 1694: x83 += einsum("ia->ia", x30) * -1
    .add 72 (.ein [(99, [0, 1])] [0, 1]) (-1) 1,
    -- 1695: x85 += einsum("ia->ia", x30) * -2
    .add 74 (.ein [(99, [0, 1])] [0, 1]) (-2) 1,
    -- 1696: del x30
    .del 99,
    -- 1697: x31 = np.zeros((nocc, nvir), dtype=types[float])
    .zeros 100 [0, 1],
    -- 1698: x31 += einsum("wx,wxia->ia", ls2, u12)
    .add 100 (.ein [(13, [0, 1]), (10, [0, 1, 2, 3])] [2, 3]) 1 1,
    -- 1699: x33 += einsum("ia->ia", x31) * 0.5
    .add 69 (.ein [(100, [0, 1])] [0, 1]) 1 2,
    -- 1700: x83 += einsum("ia->ia", x31) * -0.5
    .add 72 (.ein [(100, [0, 1])] [0, 1]) (-1) 2,
    -- 1701: x85 += einsum("ia->ia", x31) * -1
    .add 74 (.ein [(100, [0, 1])] [0, 1]) (-1) 1,
    -- 1702: del x31
    .del 100,
    -- 1703: rdm2_f_vvoo += einsum("ia,jb->baij", t1, x85) * 0.5
    .add 30 (.ein [(6, [0, 1]), (74, [2, 3])] [3, 1, 0, 2]) 1 2,
    -- 1704: rdm2_f_vvoo += einsum("ia,jb->abij", t1, x85) * -0.5
    .add 30 (.ein [(6, [0, 1]), (74, [2, 3])] [1, 3, 0, 2]) (-1) 2,
    -- 1705: del x85
    .del 74,
    -- 1706: x33 += einsum("ia->ia", t1)
    .add 69 (.ein [(6, [0, 1])] [0, 1]) 1 1,
    -- 1707: rdm2_f_ovoo += einsum("ij,ka->jaki", delta_oo, x33) * -1
    .add 28 (.ein [(18, [0, 1]), (69, [2, 3])] [1, 3, 2, 0]) (-1) 1,
    -- 1708: rdm2_f_ovoo += einsum("ij,ka->jaik", delta_oo, x33)
    .add 28 (.ein [(18, [0, 1]), (69, [2, 3])] [1, 3, 0, 2]) 1 1,
    -- 1709: rdm2_f_vooo += einsum("ij,ka->ajik", delta_oo, x33) * -1
    .add 29 (.ein [(18, [0, 1]), (69, [2, 3])] [3, 1, 0, 2]) (-1) 1,
    -- 1710: rdm2_f_vooo += einsum("ij,ka->ajki", delta_oo, x33)
    .add 29 (.ein [(18, [0, 1]), (69, [2, 3])] [3, 1, 2, 0]) 1 1,
    -- 1711: del x33
    .del 69,
    -- 1712: x36 = np.zeros((nocc, nocc, nvir, nvir), dtype=types[float])
    .zeros 101 [0, 0, 1, 1],
    -- 1713: x36 -= einsum("abij,kjca->ikbc", l2, t2)
    .add 101 (.ein [(4, [0, 1, 2, 3]), (5, [4, 3, 5, 0])] [2, 4, 1, 5]) (-1) 1,
    -- 1714: x72 = np.zeros((nocc, nocc, nvir, nvir), dtype=types[float])
    .zeros 102 [0, 0, 1, 1],
    -- 1715: x72 += einsum("ijab,jkbc->ikac", t2, x36)
    .add 102 (.ein [(5, [0, 1, 2, 3]), (101, [1, 4, 3, 5])] [0, 4, 2, 5]) 1 1,
    -- 1716: x73 += einsum("ijab->ijab", x72)
    .add 77 (.ein [(102, [0, 1, 2, 3])] [0, 1, 2, 3]) 1 1,
    -- 1717: del x72
    .del 102,
    -- 1718: x94 = np.zeros((nocc, nvir, nvir, nvir), dtype=types[float])
    .zeros 103 [0, 1, 1, 1],
    -- 1719: x94 += einsum("ia,ijbc->jbac", t1, x36)
    .add 103 (.ein [(6, [0, 1]), (101, [0, 2, 3, 4])] [2, 3, 1, 4]) 1 1,
    -- 1720: x96 = np.zeros((nocc, nvir, nvir, nvir), dtype=types[float])
    .zeros 104 [0, 1, 1, 1],
    -- 1721: x96 -= einsum("iabc->iabc", x94)
    .add 104 (.ein [(103, [0, 1, 2, 3])] [0, 1, 2, 3]) (-1) 1,
    -- 1722: del x94
    .del 103,
    -- 1723: rdm2_f_ovov -= einsum("ijab->ibja", x36)
    .add 44 (.ein [(101, [0, 1, 2, 3])] [0, 3, 1, 2]) (-1) 1,
    -- 1724: rdm2_f_ovvo += einsum("ijab->ibaj", x36)
    .add 45 (.ein [(101, [0, 1, 2, 3])] [0, 3, 2, 1]) 1 1,
    -- 1725: rdm2_f_voov += einsum("ijab->bija", x36)
    .add 46 (.ein [(101, [0, 1, 2, 3])] [3, 0, 1, 2]) 1 1,
    -- 1726: rdm2_f_vovo -= einsum("ijab->biaj", x36)
    .add 47 (.ein [(101, [0, 1, 2, 3])] [3, 0, 2, 1]) (-1) 1,
    -- 1727: del x36
    .del 101,
    -- 1728: x38 = np.zeros((nocc, nocc, nvir, nvir), dtype=types[float])
    .zeros 105 [0, 0, 1, 1],
    -- 1729: x38 += einsum("wai,wjb->ijab", lu11, u11)
    .add 105 (.ein [(7, [0, 1, 2]), (8, [0, 3, 4])] [2, 3, 1, 4]) 1 1,
    -- 1730: rdm2_f_ovov -= einsum("ijab->ibja", x38)
    .add 44 (.ein [(105, [0, 1, 2, 3])] [0, 3, 1, 2]) (-1) 1,
    -- 1731: rdm2_f_ovvo += einsum("ijab->ibaj", x38)
    .add 45 (.ein [(105, [0, 1, 2, 3])] [0, 3, 2, 1]) 1 1,
    -- 1732: rdm2_f_voov += einsum("ijab->bija", x38)
    .add 46 (.ein [(105, [0, 1, 2, 3])] [3, 0, 1, 2]) 1 1,
    -- 1733: rdm2_f_vovo -= einsum("ijab->biaj", x38)
    .add 47 (.ein [(105, [0, 1, 2, 3])] [3, 0, 2, 1]) (-1) 1,
    -- 1734: del x38
    .del 105,
    -- 1735: x39 = np.zeros((nocc, nocc, nvir, nvir), dtype=types[float])
    .zeros 106 [0, 0, 1, 1],
    -- 1736: x39 += einsum("wxai,wxjb->ijab", lu12, u12)
    .add 106 (.ein [(9, [0, 1, 2, 3]), (10, [0, 1, 4, 5])] [3, 4, 2, 5]) 1 1,
    -- 1737: x97 = np.zeros((nocc, nvir, nvir, nvir), dtype=types[float])
    .zeros 107 [0, 1, 1, 1],
    -- 1738: x97 += einsum("ia,ijbc->jbac", t1, x39)
    .add 107 (.ein [(6, [0, 1]), (106, [0, 2, 3, 4])] [2, 3, 1, 4]) 1 1,
    -- 1739: x98 = np.zeros((nocc, nvir, nvir, nvir), dtype=types[float])
    .zeros 108 [0, 1, 1, 1],
    -- 1740: x98 += einsum("iabc->iabc", x97) * -0.5
    .add 108 (.ein [(107, [0, 1, 2, 3])] [0, 1, 2, 3]) (-1) 2,
    -- 1741: del x97
    .del 107,
    -- 1742: rdm2_f_ovov += einsum("ijab->ibja", x39) * -0.5
    .add 44 (.ein [(106, [0, 1, 2, 3])] [0, 3, 1, 2]) (-1) 2,
    -- 1743: rdm2_f_ovvo += einsum("ijab->ibaj", x39) * 0.5
    .add 45 (.ein [(106, [0, 1, 2, 3])] [0, 3, 2, 1]) 1 2,
    -- 1744: rdm2_f_voov += einsum("ijab->bija", x39) * 0.5
    .add 46 (.ein [(106, [0, 1, 2, 3])] [3, 0, 1, 2]) 1 2,
    -- 1745: rdm2_f_vovo += einsum("ijab->biaj", x39) * -0.5
    .add 47 (.ein [(106, [0, 1, 2, 3])] [3, 0, 2, 1]) (-1) 2,
    -- 1746: del x39
    .del 106,
    -- 1747: x40 = np.zeros((nvir, nvir), dtype=types[float])
    .zeros 109 [1, 1],
    -- 1748: x40 += einsum("ai,ib->ab", l1, t1)
    .add 109 (.ein [(11, [0, 1]), (6, [1, 2])] [0, 2]) 1 1,
    -- 1749: x44 = np.zeros((nvir, nvir), dtype=types[float])
    .zeros 110 [1, 1],
    -- 1750: x44 += einsum("ab->ab", x40) * 2
    .add 110 (.ein [(109, [0, 1])] [0, 1]) 2 1,
    -- 1751: x45 = np.zeros((nvir, nvir), dtype=types[float])
    .zeros 111 [1, 1],
    -- 1752: x45 += einsum("ab->ab", x40)
    .add 111 (.ein [(109, [0, 1])] [0, 1]) 1 1,
    -- 1753: x95 = np.zeros((nvir, nvir), dtype=types[float])
    .zeros 112 [1, 1],
    -- 1754: x95 += einsum("ab->ab", x40)
    .add 112 (.ein [(109, [0, 1])] [0, 1]) 1 1,
    -- 1755: del x40
    .del 109,
    -- 1756: x41 = np.zeros((nvir, nvir), dtype=types[float])
    .zeros 113 [1, 1],
    -- 1757: x41 += einsum("wai,wib->ab", lu11, u11)
    .add 113 (.ein [(7, [0, 1, 2]), (8, [0, 2, 3])] [1, 3]) 1 1,
    -- 1758: x44 += einsum("ab->ab", x41) * 2
    .add 110 (.ein [(113, [0, 1])] [0, 1]) 2 1,
    -- 1759: x45 += einsum("ab->ab", x41)
    .add 111 (.ein [(113, [0, 1])] [0, 1]) 1 1,
    -- 1760: x71 = np.zeros((nocc, nocc, nvir, nvir), dtype=types[float])
    .zeros 114 [0, 0, 1, 1],
    -- 1761: x71 += einsum("ab,ijca->ijcb", x41, t2)
    .add 114 (.ein [(113, [0, 1]), (5, [2, 3, 4, 0])] [2, 3, 4, 1]) 1 1,
    -- 1762: x73 -= einsum("ijab->ijab", x71)
    .add 77 (.ein [(114, [0, 1, 2, 3])] [0, 1, 2, 3]) (-1) 1,
    -- 1763: del x71
    .del 114,
    -- 1764: rdm2_f_vvoo -= einsum("ijab->abji", x73)
    .add 30 (.ein [(77, [0, 1, 2, 3])] [2, 3, 1, 0]) (-1) 1,
    -- 1765: rdm2_f_vvoo += einsum("ijab->baji", x73)
    .add 30 (.ein [(77, [0, 1, 2, 3])] [3, 2, 1, 0]) 1 1,
    -- 1766: del x73
    .del 77,
    -- 1767: x95 += einsum("ab->ab", x41)
    .add 112 (.ein [(113, [0, 1])] [0, 1]) 1 1,
    -- 1768: del x41
    .del 113,
    -- 1769: x96 += einsum("ia,bc->ibac", t1, x95)
    .add 104 (.ein [(6, [0, 1]), (112, [2, 3])] [0, 2, 1, 3]) 1 1,
    -- 1770: del x95
    .del 112,
    -- 1771: x42 = np.zeros((nvir, nvir), dtype=types[float])
    .zeros 115 [1, 1],
    -- 1772: x42 += einsum("wxai,wxib->ab", lu12, u12)
    .add 115 (.ein [(9, [0, 1, 2, 3]), (10, [0, 1, 3, 4])] [2, 4]) 1 1,
    -- 1773: x44 += einsum("ab->ab", x42)
    .add 110 (.ein [(115, [0, 1])] [0, 1]) 1 1,
    -- 1774: x45 += einsum("ab->ab", x42) * 0.5
    .add 111 (.ein [(115, [0, 1])] [0, 1]) 1 2,
    -- 1775: x46 = np.zeros((nvir, nvir), dtype=types[float])
    .zeros 116 [1, 1],
    -- 1776: x46 += einsum("ab->ab", x42)
    .add 116 (.ein [(115, [0, 1])] [0, 1]) 1 1,
    -- 1777: del x42
    .del 115,
    -- 1778: x43 = np.zeros((nvir, nvir), dtype=types[float])
    .zeros 117 [1, 1],
    -- 1779: x43 -= einsum("abij,ijca->bc", l2, t2)
    .add 117 (.ein [(4, [0, 1, 2, 3]), (5, [2, 3, 4, 0])] [1, 4]) (-1) 1,
    -- 1780: x44 += einsum("ab->ab", x43)
    .add 110 (.ein [(117, [0, 1])] [0, 1]) 1 1,
    -- 1781: rdm2_f_ovov += einsum("ij,ab->jbia", delta_oo, x44) * 0.5
    .add 44 (.ein [(18, [0, 1]), (110, [2, 3])] [1, 3, 0, 2]) 1 2,
    -- 1782: rdm2_f_voov += einsum("ij,ab->bjia", delta_oo, x44) * -0.5
    .add 46 (.ein [(18, [0, 1]), (110, [2, 3])] [3, 1, 0, 2]) (-1) 2,
    -- 1783: del x44
    .del 110,
    -- 1784: x45 += einsum("ab->ab", x43) * 0.5
    .add 111 (.ein [(117, [0, 1])] [0, 1]) 1 2,
    -- 1785: rdm2_f_ovvo += einsum("ij,ab->jbai", delta_oo, x45) * -1
    .add 45 (.ein [(18, [0, 1]), (111, [2, 3])] [1, 3, 2, 0]) (-1) 1,
    -- 1786: rdm2_f_vovo += einsum("ij,ab->bjai", delta_oo, x45)
    .add 47 (.ein [(18, [0, 1]), (111, [2, 3])] [3, 1, 2, 0]) 1 1,
    -- 1787: del x45
    .del 111,
    -- 1788: x46 += einsum("ab->ab", x43)
    .add 116 (.ein [(117, [0, 1])] [0, 1]) 1 1,
    -- 1789: del x43
    .del 117,
    -- 1790: x47 = np.zeros((nocc, nocc, nvir, nvir), dtype=types[float])
    .zeros 118 [0, 0, 1, 1],
    -- 1791: x47 += einsum("ab,ijac->ijbc", x46, t2) * 0.5
    .add 118 (.ein [(116, [0, 1]), (5, [2, 3, 0, 4])] [2, 3, 1, 4]) 1 2,
    -- 1792: rdm2_f_vvoo += einsum("ijab->baij", x47)
    .add 30 (.ein [(118, [0, 1, 2, 3])] [3, 2, 0, 1]) 1 1,
    -- 1793: rdm2_f_vvoo += einsum("ijab->abij", x47) * -1
    .add 30 (.ein [(118, [0, 1, 2, 3])] [2, 3, 0, 1]) (-1) 1,
    -- 1794: del x47
    .del 118,
    -- 1795: x98 += einsum("ia,bc->ibac", t1, x46) * 0.5
    .add 108 (.ein [(6, [0, 1]), (116, [2, 3])] [0, 2, 1, 3]) 1 2,
    -- 1796: del x46
    .del 116,
    -- 1797: rdm2_f_vvov += einsum("iabc->bcia", x98)
    .add 42 (.ein [(108, [0, 1, 2, 3])] [2, 3, 0, 1]) 1 1,
    -- 1798: rdm2_f_vvov += einsum("iabc->cbia", x98) * -1
    .add 42 (.ein [(108, [0, 1, 2, 3])] [3, 2, 0, 1]) (-1) 1,
    -- 1799: rdm2_f_vvvo += einsum("iabc->bcai", x98) * -1
    .add 43 (.ein [(108, [0, 1, 2, 3])] [2, 3, 1, 0]) (-1) 1,
    -- 1800: rdm2_f_vvvo += einsum("iabc->cbai", x98)
    .add 43 (.ein [(108, [0, 1, 2, 3])] [3, 2, 1, 0]) 1 1,
    -- 1801: del x98
    .del 108,
    -- 1802: x48 = np.zeros((nbos, nbos, nocc, nvir), dtype=types[float])
    .zeros 119 [2, 2, 0, 1],
    -- 1803: x48 += einsum("wxai,jiba->wxjb", lu12, t2)
    .add 119 (.ein [(9, [0, 1, 2, 3]), (5, [4, 3, 5, 2])] [0, 1, 4, 5]) 1 1,
    -- 1804: x49 = np.zeros((nocc, nocc, nvir, nvir), dtype=types[float])
    .zeros 120 [0, 0, 1, 1],
    -- 1805: x49 += einsum("wxia,wxjb->jiba", u12, x48)
    .add 120 (.ein [(10, [0, 1, 2, 3]), (119, [0, 1, 4, 5])] [4, 2, 5, 3]) 1 1,
    -- 1806: del x48
    .del 119,
    -- 1807: x54 += einsum("ijab->ijab", x49) * -0.5
    .add 95 (.ein [(120, [0, 1, 2, 3])] [0, 1, 2, 3]) (-1) 2,
    -- 1808: del x49
    .del 120,
    -- 1809: rdm2_f_vvoo += einsum("ijab->abij", x54) * -1
    .add 30 (.ein [(95, [0, 1, 2, 3])] [2, 3, 0, 1]) (-1) 1,
    -- 1810: rdm2_f_vvoo += einsum("ijab->baij", x54)
    .add 30 (.ein [(95, [0, 1, 2, 3])] [3, 2, 0, 1]) 1 1,
    -- 1811: rdm2_f_vvoo += einsum("ijab->abji", x54)
    .add 30 (.ein [(95, [0, 1, 2, 3])] [2, 3, 1, 0]) 1 1,
    -- 1812: rdm2_f_vvoo += einsum("ijab->baji", x54) * -1
    .add 30 (.ein [(95, [0, 1, 2, 3])] [3, 2, 1, 0]) (-1) 1,
    -- 1813: del x54
    .del 95,
    -- 1814: x61 = np.zeros((nbos, nocc, nvir), dtype=types[float])
    .zeros 121 [2, 0, 1],
    -- 1815: x61 += einsum("wai,jiba->wjb", lu11, t2)
    .add 121 (.ein [(7, [0, 1, 2]), (5, [3, 2, 4, 1])] [0, 3, 4]) 1 1,
    -- 1816: x63 += einsum("wia->wia", x61)
    .add 82 (.ein [(121, [0, 1, 2])] [0, 1, 2]) 1 1,
    -- 1817: del x61
    .del 121,
    -- 1818: x64 = np.zeros((nocc, nocc, nvir, nvir), dtype=types[float])
    .zeros 122 [0, 0, 1, 1],
    -- 1819: x64 += einsum("wia,wjb->jiba", u11, x63)
    .add 122 (.ein [(8, [0, 1, 2]), (82, [0, 3, 4])] [3, 1, 4, 2]) 1 1,
    -- 1820: del x63
    .del 82,
    -- 1821: x67 += einsum("ijab->ijab", x64)
    .add 36 (.ein [(122, [0, 1, 2, 3])] [0, 1, 2, 3]) 1 1,
    -- 1822: del x64
    .del 122,
    -- 1823: rdm2_f_vvoo += einsum("ijab->abij", x67)
    .add 30 (.ein [(36, [0, 1, 2, 3])] [2, 3, 0, 1]) 1 1,
    -- 1824: rdm2_f_vvoo -= einsum("ijab->baij", x67)
    .add 30 (.ein [(36, [0, 1, 2, 3])] [3, 2, 0, 1]) (-1) 1,
    -- 1825: rdm2_f_vvoo -= einsum("ijab->abji", x67)
    .add 30 (.ein [(36, [0, 1, 2, 3])] [2, 3, 1, 0]) (-1) 1,
    -- 1826: rdm2_f_vvoo += einsum("ijab->baji", x67)
    .add 30 (.ein [(36, [0, 1, 2, 3])] [3, 2, 1, 0]) 1 1,
    -- 1827: del x67
    .del 36,
    -- 1828: x68 = np.zeros((nbos, nocc, nvir), dtype=types[float])
    .zeros 123 [2, 0, 1],
    -- 1829: x68 += einsum("wx,xia->wia", ls2, u11)
    .add 123 (.ein [(13, [0, 1]), (8, [1, 2, 3])] [0, 2, 3]) 1 1,
    -- 1830: x69 = np.zeros((nocc, nocc, nvir, nvir), dtype=types[float])
    .zeros 124 [0, 0, 1, 1],
    -- 1831: x69 += einsum("wia,wjb->jiba", u11, x68)
    .add 124 (.ein [(8, [0, 1, 2]), (123, [0, 3, 4])] [3, 1, 4, 2]) 1 1,
    -- 1832: del x68
    .del 123,
    -- 1833: rdm2_f_vvoo -= einsum("ijab->baij", x69)
    .add 30 (.ein [(124, [0, 1, 2, 3])] [3, 2, 0, 1]) (-1) 1,
    -- 1834: rdm2_f_vvoo += einsum("ijab->baji", x69)
    .add 30 (.ein [(124, [0, 1, 2, 3])] [3, 2, 1, 0]) 1 1,
    -- 1835: del x69
    .del 124,
    -- 1836: x83 += einsum("ia->ia", t1) * -1
    .add 72 (.ein [(6, [0, 1])] [0, 1]) (-1) 1,
    -- 1837: rdm2_f_vvoo += einsum("ia,jb->abji", t1, x83)
    .add 30 (.ein [(6, [0, 1]), (72, [2, 3])] [1, 3, 2, 0]) 1 1,
    -- 1838: rdm2_f_vvoo += einsum("ia,jb->baji", t1, x83) * -1
    .add 30 (.ein [(6, [0, 1]), (72, [2, 3])] [3, 1, 2, 0]) (-1) 1,
    -- 1839: del x83
    .del 72,
    -- 1840: x86 = np.zeros((nocc, nvir, nvir, nvir), dtype=types[float])
    .zeros 125 [0, 1, 1, 1],
    -- 1841: x86 += einsum("ia,bcji->jbca", t1, l2)
    .add 125 (.ein [(6, [0, 1]), (4, [2, 3, 4, 0])] [4, 2, 3, 1]) 1 1,
    -- 1842: rdm2_f_ovvv = np.zeros((nocc, nvir, nvir, nvir), dtype=types[float])
    .zeros 126 [0, 1, 1, 1],
    -- 1843: rdm2_f_ovvv -= einsum("iabc->icba", x86)
    .add 126 (.ein [(125, [0, 1, 2, 3])] [0, 3, 2, 1]) (-1) 1,
    -- 1844: rdm2_f_vovv = np.zeros((nvir, nocc, nvir, nvir), dtype=types[float])
    .zeros 127 [1, 0, 1, 1],
    -- 1845: rdm2_f_vovv += einsum("iabc->ciba", x86)
    .add 127 (.ein [(125, [0, 1, 2, 3])] [3, 0, 2, 1]) 1 1,
    -- 1846: rdm2_f_vvvv = np.zeros((nvir, nvir, nvir, nvir), dtype=types[float])
    .zeros 128 [1, 1, 1, 1],
    -- 1847: rdm2_f_vvvv -= einsum("ia,ibcd->adcb", t1, x86)
    .add 128 (.ein [(6, [0, 1]), (125, [0, 2, 3, 4])] [1, 4, 3, 2]) (-1) 1,
    -- 1848: del x86
    .del 125,
    -- 1849: x89 = np.zeros((nocc, nvir, nvir, nvir), dtype=types[float])
    .zeros 129 [0, 1, 1, 1],
    -- 1850: x89 += einsum("ai,jibc->jabc", l1, t2)
    .add 129 (.ein [(11, [0, 1]), (5, [2, 1, 3, 4])] [2, 0, 3, 4]) 1 1,
    -- 1851: rdm2_f_vvov -= einsum("iabc->cbia", x89)
    .add 42 (.ein [(129, [0, 1, 2, 3])] [3, 2, 0, 1]) (-1) 1,
    -- 1852: rdm2_f_vvvo += einsum("iabc->cbai", x89)
    .add 43 (.ein [(129, [0, 1, 2, 3])] [3, 2, 1, 0]) 1 1,
    -- 1853: del x89
    .del 129,
    -- 1854: x90 = np.zeros((nbos, nvir, nvir), dtype=types[float])
    .zeros 130 [2, 1, 1],
    -- 1855: x90 += einsum("ia,wbi->wba", t1, lu11)
    .add 130 (.ein [(6, [0, 1]), (7, [2, 3, 0])] [2, 3, 1]) 1 1,
    -- 1856: x91 = np.zeros((nocc, nvir, nvir, nvir), dtype=types[float])
    .zeros 131 [0, 1, 1, 1],
    -- 1857: x91 += einsum("wia,wbc->ibca", u11, x90)
    .add 131 (.ein [(8, [0, 1, 2]), (130, [0, 3, 4])] [1, 3, 4, 2]) 1 1,
    -- 1858: del x90
    .del 130,
    -- 1859: x96 -= einsum("iabc->iabc", x91)
    .add 104 (.ein [(131, [0, 1, 2, 3])] [0, 1, 2, 3]) (-1) 1,
    -- 1860: del x91
    .del 131,
    -- 1861: x92 = np.zeros((nbos, nvir, nvir), dtype=types[float])
    .zeros 132 [2, 1, 1],
    -- 1862: x92 += einsum("wia,xwbi->xba", u11, lu12)
    .add 132 (.ein [(8, [0, 1, 2]), (9, [3, 0, 4, 1])] [3, 4, 2]) 1 1,
    -- 1863: x93 = np.zeros((nocc, nvir, nvir, nvir), dtype=types[float])
    .zeros 133 [0, 1, 1, 1],
    -- 1864: x93 += einsum("wia,wbc->ibac", u11, x92)
    .add 133 (.ein [(8, [0, 1, 2]), (132, [0, 3, 4])] [1, 3, 2, 4]) 1 1,
    -- 1865: del x92
    .del 132,
    -- 1866: x96 += einsum("iabc->iabc", x93)
    .add 104 (.ein [(133, [0, 1, 2, 3])] [0, 1, 2, 3]) 1 1,
    -- 1867: del x93
    .del 133,
    -- 1868: rdm2_f_vvov += einsum("iabc->bcia", x96)
    .add 42 (.ein [(104, [0, 1, 2, 3])] [2, 3, 0, 1]) 1 1,
    -- 1869: rdm2_f_vvov -= einsum("iabc->cbia", x96)
    .add 42 (.ein [(104, [0, 1, 2, 3])] [3, 2, 0, 1]) (-1) 1,
    -- 1870: rdm2_f_vvvo -= einsum("iabc->bcai", x96)
    .add 43 (.ein [(104, [0, 1, 2, 3])] [2, 3, 1, 0]) (-1) 1,
    -- 1871: rdm2_f_vvvo += einsum("iabc->cbai", x96)
    .add 43 (.ein [(104, [0, 1, 2, 3])] [3, 2, 1, 0]) 1 1,
    -- 1872: del x96
    .del 104,
    -- 1873: rdm2_f_oooo += einsum("ij,kl->jlik", delta_oo, delta_oo)
    .add 24 (.ein [(18, [0, 1]), (18, [2, 3])] [1, 3, 0, 2]) 1 1,
    -- 1874: rdm2_f_oooo -= einsum("ij,kl->lijk", delta_oo, delta_oo)
    .add 24 (.ein [(18, [0, 1]), (18, [2, 3])] [3, 0, 1, 2]) (-1) 1,
    -- 1875: rdm2_f_ooov += einsum("ij,ak->jkia", delta_oo, l1)
    .add 49 (.ein [(18, [0, 1]), (11, [2, 3])] [1, 3, 0, 2]) 1 1,
    -- 1876: rdm2_f_ooov -= einsum("ij,ak->kjia", delta_oo, l1)
    .add 49 (.ein [(18, [0, 1]), (11, [2, 3])] [3, 1, 0, 2]) (-1) 1,
    -- 1877: rdm2_f_oovo -= einsum("ij,ak->jkai", delta_oo, l1)
    .add 50 (.ein [(18, [0, 1]), (11, [2, 3])] [1, 3, 2, 0]) (-1) 1,
    -- 1878: rdm2_f_oovo += einsum("ij,ak->kjai", delta_oo, l1)
    .add 50 (.ein [(18, [0, 1]), (11, [2, 3])] [3, 1, 2, 0]) 1 1,
    -- 1879: rdm2_f_oovv = np.zeros((nocc, nocc, nvir, nvir), dtype=types[float])
    .zeros 134 [0, 0, 1, 1],
    -- 1880: rdm2_f_oovv += einsum("abij->jiba", l2)
    .add 134 (.ein [(4, [0, 1, 2, 3])] [3, 2, 1, 0]) 1 1,
    -- 1881: rdm2_f_ovov -= einsum("ai,jb->ibja", l1, t1)
    .add 44 (.ein [(11, [0, 1]), (6, [2, 3])] [1, 3, 2, 0]) (-1) 1,
    -- 1882: rdm2_f_ovvo += einsum("ai,jb->ibaj", l1, t1)
    .add 45 (.ein [(11, [0, 1]), (6, [2, 3])] [1, 3, 0, 2]) 1 1,
    -- 1883: rdm2_f_voov += einsum("ai,jb->bija", l1, t1)
    .add 46 (.ein [(11, [0, 1]), (6, [2, 3])] [3, 1, 2, 0]) 1 1,
    -- 1884: rdm2_f_vovo -= einsum("ai,jb->biaj", l1, t1)
    .add 47 (.ein [(11, [0, 1]), (6, [2, 3])] [3, 1, 0, 2]) (-1) 1,
    -- 1885: rdm2_f_vvoo += einsum("ijab->baji", t2)
    .add 30 (.ein [(5, [0, 1, 2, 3])] [3, 2, 1, 0]) 1 1,
    -- 1886: rdm2_f_vvvv += einsum("abij,ijcd->dcba", l2, t2) * 0.5
    .add 128 (.ein [(4, [0, 1, 2, 3]), (5, [2, 3, 4, 5])] [5, 4, 1, 0]) 1 2,
    -- 1890: rdm2_f = np.transpose(rdm2_f, (0, 2, 1, 3))
    .set 135 (.tr 24 [0, 2, 1, 3]) 1 1,
    .set 136 (.tr 49 [0, 2, 1, 3]) 1 1,
    .set 137 (.tr 28 [0, 2, 1, 3]) 1 1,
    .set 138 (.tr 50 [0, 2, 1, 3]) 1 1,
    .set 139 (.tr 29 [0, 2, 1, 3]) 1 1,
    .set 140 (.tr 44 [0, 2, 1, 3]) 1 1,
    .set 141 (.tr 134 [0, 2, 1, 3]) 1 1,
    .set 142 (.tr 45 [0, 2, 1, 3]) 1 1,
    .set 143 (.tr 46 [0, 2, 1, 3]) 1 1,
    .set 144 (.tr 30 [0, 2, 1, 3]) 1 1,
    .set 145 (.tr 47 [0, 2, 1, 3]) 1 1,
    .set 146 (.tr 126 [0, 2, 1, 3]) 1 1,
    .set 147 (.tr 42 [0, 2, 1, 3]) 1 1,
    .set 148 (.tr 127 [0, 2, 1, 3]) 1 1,
    .set 149 (.tr 43 [0, 2, 1, 3]) 1 1,
    .set 150 (.tr 128 [0, 2, 1, 3]) 1 1
  ]
  ret := [(chars! "rdm2_f.oooo", 135), (chars! "rdm2_f.ooov", 136), (chars! "rdm2_f.oovo", 137), (chars! "rdm2_f.ovoo", 138), (chars! "rdm2_f.vooo", 139), (chars! "rdm2_f.oovv", 140), (chars! "rdm2_f.ovov", 141), (chars! "rdm2_f.ovvo", 142), (chars! "rdm2_f.voov", 143), (chars! "rdm2_f.vovo", 144), (chars! "rdm2_f.vvoo", 145), (chars! "rdm2_f.ovvv", 146), (chars! "rdm2_f.vovv", 147), (chars! "rdm2_f.vvov", 148), (chars! "rdm2_f.vvvo", 149), (chars! "rdm2_f.vvvv", 150)]

/-- codegen/GCCSD_SD_1_2.py:1894-1914 `make_sing_b_dm`. -/
def make_sing_b_dm : GenFun where
  args := [chars! "g.boo", chars! "g.bvo", chars! "g.bov", chars! "g.bvv", chars! "ls1", chars! "lu11", chars! "u12", chars! "l1", chars! "u11", chars! "s2", chars! "s1"]
  body := [
    -- 1896: gc = Namespace(
    .set 11 (.tr 0 [0, 2, 1]) 1 1,
    .set 12 (.tr 1 [0, 2, 1]) 1 1,
    .set 13 (.tr 2 [0, 2, 1]) 1 1,
    .set 14 (.tr 3 [0, 2, 1]) 1 1,
    -- 1904: dm_b_cre = np.zeros((nbos), dtype=types[float])
    .zeros 15 [2],
    -- 1905: dm_b_cre += einsum("w->w", ls1)
    .add 15 (.ein [(4, [0])] [0]) 1 1,
    -- 1906: dm_b_des = np.zeros((nbos), dtype=types[float])
    .zeros 16 [2],
    -- 1907: dm_b_des += einsum("wai,xwia->x", lu11, u12)
    .add 16 (.ein [(5, [0, 1, 2]), (6, [3, 0, 2, 1])] [3]) 1 1,
    -- 1908: dm_b_des += einsum("ai,wia->w", l1, u11)
    .add 16 (.ein [(7, [0, 1]), (8, [2, 1, 0])] [2]) 1 1,
    -- 1909: dm_b_des += einsum("w,xw->x", ls1, s2)
    .add 16 (.ein [(4, [0]), (9, [1, 0])] [1]) 1 1,
    -- 1910: dm_b_des += einsum("w->w", s1)
    .add 16 (.ein [(10, [0])] [0]) 1 1
  ]
  ret := [(chars! "dm_b.0", 15), (chars! "dm_b.1", 16)]

/-- codegen/GCCSD_SD_1_2.py:1916-1932 `make_rdm1_b`. -/
def make_rdm1_b : GenFun where
  args := [chars! "g.boo", chars! "g.bvo", chars! "g.bov", chars! "g.bvv", chars! "ls1", chars! "s1", chars! "lu11", chars! "u11", chars! "ls2", chars! "s2", chars! "lu12", chars! "u12"]
  body := [
    -- 1918: gc = Namespace(
    .set 12 (.tr 0 [0, 2, 1]) 1 1,
    .set 13 (.tr 1 [0, 2, 1]) 1 1,
    .set 14 (.tr 2 [0, 2, 1]) 1 1,
    .set 15 (.tr 3 [0, 2, 1]) 1 1,
    -- 1926: rdm1_b = np.zeros((nbos, nbos), dtype=types[float])
    .zeros 16 [2, 2],
    -- 1927: rdm1_b += einsum("w,x->wx", ls1, s1)
    .add 16 (.ein [(4, [0]), (5, [1])] [0, 1]) 1 1,
    -- 1928: rdm1_b += einsum("wai,xia->wx", lu11, u11)
    .add 16 (.ein [(6, [0, 1, 2]), (7, [3, 2, 1])] [0, 3]) 1 1,
    -- 1929: rdm1_b += einsum("wx,yx->wy", ls2, s2)
    .add 16 (.ein [(8, [0, 1]), (9, [2, 1])] [0, 2]) 1 1,
    -- 1930: rdm1_b += einsum("wxai,yxia->wy", lu12, u12)
    .add 16 (.ein [(10, [0, 1, 2, 3]), (11, [4, 1, 3, 2])] [0, 4]) 1 1
  ]
  ret := [(chars! "rdm1_b", 16)]

/-- codegen/GCCSD_SD_1_2.py:1934-2136 `make_eb_coup_rdm`. -/
def make_eb_coup_rdm : GenFun where
  args := [chars! "g.boo", chars! "g.bvo", chars! "g.bov", chars! "g.bvv", chars! "u11", chars! "lu12", chars! "s2", chars! "t1", chars! "lu11", chars! "u12", chars! "l1", chars! "l2", chars! "t2", chars! "s1", chars! "ls1", chars! "ls2"]
  body := [
    -- 1936: gc = Namespace(
    .set 16 (.tr 0 [0, 2, 1]) 1 1,
    .set 17 (.tr 1 [0, 2, 1]) 1 1,
    .set 18 (.tr 2 [0, 2, 1]) 1 1,
    .set 19 (.tr 3 [0, 2, 1]) 1 1,
    -- 1943: delta_oo = np.eye(nocc)
    .eye 20 0,
    -- 1944: delta_vv = np.eye(nvir)
    .eye 21 1,
    -- 1947: x0 = np.zeros((nbos, nocc, nocc), dtype=types[float])
    .zeros 22 [2, 0, 0],
    -- 1948: x0 += einsum("wia,xwaj->xji", u11, lu12)
    .add 22 (.ein [(4, [0, 1, 2]), (5, [3, 0, 2, 4])] [3, 4, 1]) 1 1,
    -- 1949: x4 = np.zeros((nbos, nocc, nocc), dtype=types[float])
    .zeros 23 [2, 0, 0],
    -- 1950: x4 += einsum("wij->wij", x0)
    .add 23 (.ein [(22, [0, 1, 2])] [0, 1, 2]) 1 1,
    -- 1951: x8 = np.zeros((nbos, nocc, nocc), dtype=types[float])
    .zeros 24 [2, 0, 0],
    -- 1952: x8 += einsum("wx,xij->wij", s2, x0)
    .add 24 (.ein [(6, [0, 1]), (22, [1, 2, 3])] [0, 2, 3]) 1 1,
    -- 1953: x27 = np.zeros((nbos, nocc, nocc), dtype=types[float])
    .zeros 25 [2, 0, 0],
    -- 1954: x27 += einsum("wij->wij", x8)
    .add 25 (.ein [(24, [0, 1, 2])] [0, 1, 2]) 1 1,
    -- 1955: rdm_eb_des_oo = np.zeros((nbos, nocc, nocc), dtype=types[float])
    .zeros 26 [2, 0, 0],
    -- 1956: rdm_eb_des_oo -= einsum("wij->wji", x8)
    .add 26 (.ein [(24, [0, 1, 2])] [0, 2, 1]) (-1) 1,
    -- 1957: del x8
    .del 24,
    -- 1958: x31 = np.zeros((nbos, nocc, nocc), dtype=types[float])
    .zeros 27 [2, 0, 0],
    -- 1959: x31 += einsum("wij->wij", x0)
    .add 27 (.ein [(22, [0, 1, 2])] [0, 1, 2]) 1 1,
    -- 1960: rdm_eb_cre_oo = np.zeros((nbos, nocc, nocc), dtype=types[float])
    .zeros 28 [2, 0, 0],
    -- 1961: rdm_eb_cre_oo -= einsum("wij->wji", x0)
    .add 28 (.ein [(22, [0, 1, 2])] [0, 2, 1]) (-1) 1,
    -- 1962: del x0
    .del 22,
    -- 1963: x1 = np.zeros((nbos, nocc, nocc), dtype=types[float])
    .zeros 29 [2, 0, 0],
    -- 1964: x1 += einsum("ia,waj->wji", t1, lu11)
    .add 29 (.ein [(7, [0, 1]), (8, [2, 1, 3])] [2, 3, 0]) 1 1,
    -- 1965: x4 += einsum("wij->wij", x1)
    .add 23 (.ein [(29, [0, 1, 2])] [0, 1, 2]) 1 1,
    -- 1966: rdm_eb_cre_ov = np.zeros((nbos, nocc, nvir), dtype=types[float])
    .zeros 30 [2, 0, 1],
    -- 1967: rdm_eb_cre_ov -= einsum("ia,wij->wja", t1, x4)
    .add 30 (.ein [(7, [0, 1]), (23, [2, 0, 3])] [2, 3, 1]) (-1) 1,
    -- 1968: rdm_eb_des_ov = np.zeros((nbos, nocc, nvir), dtype=types[float])
    .zeros 31 [2, 0, 1],
    -- 1969: rdm_eb_des_ov -= einsum("wij,wxia->xja", x4, u12)
    .add 31 (.ein [(23, [0, 1, 2]), (9, [0, 3, 1, 4])] [3, 2, 4]) (-1) 1,
    -- 1970: del x4
    .del 23,
    -- 1971: x31 += einsum("wij->wij", x1)
    .add 27 (.ein [(29, [0, 1, 2])] [0, 1, 2]) 1 1,
    -- 1972: x33 = np.zeros((nocc, nvir), dtype=types[float])
    .zeros 32 [0, 1],
    -- 1973: x33 += einsum("wia,wij->ja", u11, x31)
    .add 32 (.ein [(4, [0, 1, 2]), (27, [0, 1, 3])] [3, 2]) 1 1,
    -- 1974: del x31
    .del 27,
    -- 1975: rdm_eb_cre_oo -= einsum("wij->wji", x1)
    .add 28 (.ein [(29, [0, 1, 2])] [0, 2, 1]) (-1) 1,
    -- 1976: del x1
    .del 29,
    -- 1977: x2 = np.zeros((nbos, nbos, nocc, nocc), dtype=types[float])
    .zeros 33 [2, 2, 0, 0],
    -- 1978: x2 += einsum("ia,wxaj->wxji", t1, lu12)
    .add 33 (.ein [(7, [0, 1]), (5, [2, 3, 1, 4])] [2, 3, 4, 0]) 1 1,
    -- 1979: x3 = np.zeros((nbos, nocc, nvir), dtype=types[float])
    .zeros 34 [2, 0, 1],
    -- 1980: x3 += einsum("wia,xwij->xja", u11, x2)
    .add 34 (.ein [(4, [0, 1, 2]), (33, [3, 0, 1, 4])] [3, 4, 2]) 1 1,
    -- 1981: rdm_eb_cre_ov -= einsum("wia->wia", x3)
    .add 30 (.ein [(34, [0, 1, 2])] [0, 1, 2]) (-1) 1,
    -- 1982: rdm_eb_des_ov -= einsum("wx,xia->wia", s2, x3)
    .add 31 (.ein [(6, [0, 1]), (34, [1, 2, 3])] [0, 2, 3]) (-1) 1,
    -- 1983: del x3
    .del 34,
    -- 1984: x33 += einsum("wxia,wxij->ja", u12, x2) * 0.5
    .add 32 (.ein [(9, [0, 1, 2, 3]), (33, [0, 1, 2, 4])] [4, 3]) 1 2,
    -- 1985: del x2
    .del 33,
    -- 1986: x5 = np.zeros((nbos, nvir, nvir), dtype=types[float])
    .zeros 35 [2, 1, 1],
    -- 1987: x5 += einsum("wia,xwbi->xba", u11, lu12)
    .add 35 (.ein [(4, [0, 1, 2]), (5, [3, 0, 4, 1])] [3, 4, 2]) 1 1,
    -- 1988: rdm_eb_cre_vv = np.zeros((nbos, nvir, nvir), dtype=types[float])
    .zeros 36 [2, 1, 1],
    -- 1989: rdm_eb_cre_vv += einsum("wab->wab", x5)
    .add 36 (.ein [(35, [0, 1, 2])] [0, 1, 2]) 1 1,
    -- 1990: rdm_eb_des_ov -= einsum("wab,xwia->xib", x5, u12)
    .add 31 (.ein [(35, [0, 1, 2]), (9, [3, 0, 4, 1])] [3, 4, 2]) (-1) 1,
    -- 1991: rdm_eb_des_vv = np.zeros((nbos, nvir, nvir), dtype=types[float])
    .zeros 37 [2, 1, 1],
    -- 1992: rdm_eb_des_vv += einsum("wx,xab->wab", s2, x5)
    .add 37 (.ein [(6, [0, 1]), (35, [1, 2, 3])] [0, 2, 3]) 1 1,
    -- 1993: del x5
    .del 35,
    -- 1994: x6 = np.zeros((nbos, nocc, nocc), dtype=types[float])
    .zeros 38 [2, 0, 0],
    -- 1995: x6 += einsum("wai,xwja->xij", lu11, u12)
    .add 38 (.ein [(8, [0, 1, 2]), (9, [3, 0, 4, 1])] [3, 2, 4]) 1 1,
    -- 1996: x27 += einsum("wij->wij", x6)
    .add 25 (.ein [(38, [0, 1, 2])] [0, 1, 2]) 1 1,
    -- 1997: rdm_eb_des_oo -= einsum("wij->wji", x6)
    .add 26 (.ein [(38, [0, 1, 2])] [0, 2, 1]) (-1) 1,
    -- 1998: del x6
    .del 38,
    -- 1999: x7 = np.zeros((nbos, nocc, nocc), dtype=types[float])
    .zeros 39 [2, 0, 0],
    -- 2000: x7 += einsum("ai,wja->wij", l1, u11)
    .add 39 (.ein [(10, [0, 1]), (4, [2, 3, 0])] [2, 1, 3]) 1 1,
    -- 2001: x27 += einsum("wij->wij", x7)
    .add 25 (.ein [(39, [0, 1, 2])] [0, 1, 2]) 1 1,
    -- 2002: rdm_eb_des_oo -= einsum("wij->wji", x7)
    .add 26 (.ein [(39, [0, 1, 2])] [0, 2, 1]) (-1) 1,
    -- 2003: del x7
    .del 39,
    -- 2004: x9 = np.zeros((nbos, nocc, nvir), dtype=types[float])
    .zeros 40 [2, 0, 1],
    -- 2005: x9 += einsum("wx,xai->wia", s2, lu11)
    .add 40 (.ein [(6, [0, 1]), (8, [1, 2, 3])] [0, 3, 2]) 1 1,
    -- 2006: x11 = np.zeros((nbos, nocc, nvir), dtype=types[float])
    .zeros 41 [2, 0, 1],
    -- 2007: x11 += einsum("wia->wia", x9)
    .add 41 (.ein [(40, [0, 1, 2])] [0, 1, 2]) 1 1,
    -- 2008: rdm_eb_des_vo = np.zeros((nbos, nvir, nocc), dtype=types[float])
    .zeros 42 [2, 1, 0],
    -- 2009: rdm_eb_des_vo += einsum("wia->wai", x9)
    .add 42 (.ein [(40, [0, 1, 2])] [0, 2, 1]) 1 1,
    -- 2010: del x9
    .del 40,
    -- 2011: x10 = np.zeros((nbos, nocc, nvir), dtype=types[float])
    .zeros 43 [2, 0, 1],
    -- 2012: x10 -= einsum("wia,abji->wjb", u11, l2)
    .add 43 (.ein [(4, [0, 1, 2]), (11, [2, 3, 4, 1])] [0, 4, 3]) (-1) 1,
    -- 2013: x11 += einsum("wia->wia", x10)
    .add 41 (.ein [(43, [0, 1, 2])] [0, 1, 2]) 1 1,
    -- 2014: x12 = np.zeros((nbos, nocc, nocc), dtype=types[float])
    .zeros 44 [2, 0, 0],
    -- 2015: x12 += einsum("ia,wja->wij", t1, x11)
    .add 44 (.ein [(7, [0, 1]), (41, [2, 3, 1])] [2, 0, 3]) 1 1,
    -- 2016: x27 += einsum("wij->wji", x12)
    .add 25 (.ein [(44, [0, 1, 2])] [0, 2, 1]) 1 1,
    -- 2017: rdm_eb_des_ov -= einsum("ia,wij->wja", t1, x27)
    .add 31 (.ein [(7, [0, 1]), (25, [2, 0, 3])] [2, 3, 1]) (-1) 1,
    -- 2018: del x27
    .del 25,
    -- 2019: rdm_eb_des_oo -= einsum("wij->wij", x12)
    .add 26 (.ein [(44, [0, 1, 2])] [0, 1, 2]) (-1) 1,
    -- 2020: del x12
    .del 44,
    -- 2021: rdm_eb_des_ov += einsum("wia,ijab->wjb", x11, t2)
    .add 31 (.ein [(41, [0, 1, 2]), (12, [1, 3, 2, 4])] [0, 3, 4]) 1 1,
    -- 2022: rdm_eb_des_vv += einsum("ia,wib->wba", t1, x11)
    .add 37 (.ein [(7, [0, 1]), (41, [2, 0, 3])] [2, 3, 1]) 1 1,
    -- 2023: del x11
    .del 41,
    -- 2024: rdm_eb_des_vo += einsum("wia->wai", x10)
    .add 42 (.ein [(43, [0, 1, 2])] [0, 2, 1]) 1 1,
    -- 2025: del x10
    .del 43,
    -- 2026: x13 = np.zeros((nocc, nocc), dtype=types[float])
    .zeros 45 [0, 0],
    -- 2027: x13 += einsum("ai,ja->ij", l1, t1)
    .add 45 (.ein [(10, [0, 1]), (7, [2, 0])] [1, 2]) 1 1,
    -- 2028: x17 = np.zeros((nocc, nocc), dtype=types[float])
    .zeros 46 [0, 0],
    -- 2029: x17 += einsum("ij->ij", x13)
    .add 46 (.ein [(45, [0, 1])] [0, 1]) 1 1,
    -- 2030: x28 = np.zeros((nocc, nocc), dtype=types[float])
    .zeros 47 [0, 0],
    -- 2031: x28 += einsum("ij->ij", x13)
    .add 47 (.ein [(45, [0, 1])] [0, 1]) 1 1,
    -- 2032: x32 = np.zeros((nocc, nocc), dtype=types[float])
    .zeros 48 [0, 0],
    -- 2033: x32 += einsum("ij->ij", x13) * 2
    .add 48 (.ein [(45, [0, 1])] [0, 1]) 2 1,
    -- 2034: del x13
    .del 45,
    -- 2035: x14 = np.zeros((nocc, nocc), dtype=types[float])
    .zeros 49 [0, 0],
    -- 2036: x14 += einsum("wai,wja->ij", lu11, u11)
    .add 49 (.ein [(8, [0, 1, 2]), (4, [0, 3, 1])] [2, 3]) 1 1,
    -- 2037: x17 += einsum("ij->ij", x14)
    .add 46 (.ein [(49, [0, 1])] [0, 1]) 1 1,
    -- 2038: x28 += einsum("ij->ij", x14)
    .add 47 (.ein [(49, [0, 1])] [0, 1]) 1 1,
    -- 2039: x32 += einsum("ij->ij", x14) * 2
    .add 48 (.ein [(49, [0, 1])] [0, 1]) 2 1,
    -- 2040: del x14
    .del 49,
    -- 2041: x15 = np.zeros((nocc, nocc), dtype=types[float])
    .zeros 50 [0, 0],
    -- 2042: x15 += einsum("wxai,wxja->ij", lu12, u12)
    .add 50 (.ein [(5, [0, 1, 2, 3]), (9, [0, 1, 4, 2])] [3, 4]) 1 1,
    -- 2043: x17 += einsum("ij->ij", x15) * 0.5
    .add 46 (.ein [(50, [0, 1])] [0, 1]) 1 2,
    -- 2044: x28 += einsum("ij->ij", x15) * 0.5
    .add 47 (.ein [(50, [0, 1])] [0, 1]) 1 2,
    -- 2045: x32 += einsum("ij->ij", x15)
    .add 48 (.ein [(50, [0, 1])] [0, 1]) 1 1,
    -- 2046: del x15
    .del 50,
    -- 2047: x16 = np.zeros((nocc, nocc), dtype=types[float])
    .zeros 51 [0, 0],
    -- 2048: x16 += einsum("abij,kjab->ik", l2, t2)
    .add 51 (.ein [(11, [0, 1, 2, 3]), (12, [4, 3, 0, 1])] [2, 4]) 1 1,
    -- 2049: x17 += einsum("ij->ij", x16) * 0.5
    .add 46 (.ein [(51, [0, 1])] [0, 1]) 1 2,
    -- 2050: x28 += einsum("ij->ij", x16) * 0.5
    .add 47 (.ein [(51, [0, 1])] [0, 1]) 1 2,
    -- 2051: rdm_eb_des_ov += einsum("ij,wia->wja", x28, u11) * -1
    .add 31 (.ein [(47, [0, 1]), (4, [2, 0, 3])] [2, 1, 3]) (-1) 1,
    -- 2052: del x28
    .del 47,
    -- 2053: x32 += einsum("ij->ij", x16)
    .add 48 (.ein [(51, [0, 1])] [0, 1]) 1 1,
    -- 2054: del x16
    .del 51,
    -- 2055: x33 += einsum("ia,ij->ja", t1, x32) * 0.5
    .add 32 (.ein [(7, [0, 1]), (48, [0, 2])] [2, 1]) 1 2,
    -- 2056: del x32
    .del 48,
    -- 2057: x17 += einsum("ij->ji", delta_oo) * -1
    .add 46 (.ein [(20, [0, 1])] [1, 0]) (-1) 1,
    -- 2058: rdm_eb_des_oo += einsum("w,ij->wji", s1, x17) * -1
    .add 26 (.ein [(13, [0]), (46, [1, 2])] [0, 2, 1]) (-1) 1,
    -- 2059: del x17
    .del 46,
    -- 2060: x18 = np.zeros((nbos), dtype=types[float])
    .zeros 52 [2],
    -- 2061: x18 += einsum("w,xw->x", ls1, s2)
    .add 52 (.ein [(14, [0]), (6, [1, 0])] [1]) 1 1,
    -- 2062: x21 = np.zeros((nbos), dtype=types[float])
    .zeros 53 [2],
    -- 2063: x21 += einsum("w->w", x18)
    .add 53 (.ein [(52, [0])] [0]) 1 1,
    -- 2064: del x18
    .del 52,
    -- 2065: x19 = np.zeros((nbos), dtype=types[float])
    .zeros 54 [2],
    -- 2066: x19 += einsum("ai,wia->w", l1, u11)
    .add 54 (.ein [(10, [0, 1]), (4, [2, 1, 0])] [2]) 1 1,
    -- 2067: x21 += einsum("w->w", x19)
    .add 53 (.ein [(54, [0])] [0]) 1 1,
    -- 2068: del x19
    .del 54,
    -- 2069: x20 = np.zeros((nbos), dtype=types[float])
    .zeros 55 [2],
    -- 2070: x20 += einsum("wai,xwia->x", lu11, u12)
    .add 55 (.ein [(8, [0, 1, 2]), (9, [3, 0, 2, 1])] [3]) 1 1,
    -- 2071: x21 += einsum("w->w", x20)
    .add 53 (.ein [(55, [0])] [0]) 1 1,
    -- 2072: del x20
    .del 55,
    -- 2073: rdm_eb_des_oo += einsum("w,ij->wji", x21, delta_oo)
    .add 26 (.ein [(53, [0]), (20, [1, 2])] [0, 2, 1]) 1 1,
    -- 2074: rdm_eb_des_ov += einsum("w,ia->wia", x21, t1)
    .add 31 (.ein [(53, [0]), (7, [1, 2])] [0, 1, 2]) 1 1,
    -- 2075: del x21
    .del 53,
    -- 2076: x22 = np.zeros((nbos, nbos, nbos), dtype=types[float])
    .zeros 56 [2, 2, 2],
    -- 2077: x22 += einsum("wia,xyai->xyw", u11, lu12)
    .add 56 (.ein [(4, [0, 1, 2]), (5, [3, 4, 2, 1])] [3, 4, 0]) 1 1,
    -- 2078: rdm_eb_des_ov += einsum("wxy,wxia->yia", x22, u12) * 0.5
    .add 31 (.ein [(56, [0, 1, 2]), (9, [0, 1, 3, 4])] [2, 3, 4]) 1 2,
    -- 2079: del x22
    .del 56,
    -- 2080: x23 = np.zeros((nvir, nvir), dtype=types[float])
    .zeros 57 [1, 1],
    -- 2081: x23 += einsum("wai,wib->ab", lu11, u11)
    .add 57 (.ein [(8, [0, 1, 2]), (4, [0, 2, 3])] [1, 3]) 1 1,
    -- 2082: x26 = np.zeros((nvir, nvir), dtype=types[float])
    .zeros 58 [1, 1],
    -- 2083: x26 += einsum("ab->ab", x23)
    .add 58 (.ein [(57, [0, 1])] [0, 1]) 1 1,
    -- 2084: x34 = np.zeros((nvir, nvir), dtype=types[float])
    .zeros 59 [1, 1],
    -- 2085: x34 += einsum("ab->ab", x23)
    .add 59 (.ein [(57, [0, 1])] [0, 1]) 1 1,
    -- 2086: del x23
    .del 57,
    -- 2087: x24 = np.zeros((nvir, nvir), dtype=types[float])
    .zeros 60 [1, 1],
    -- 2088: x24 += einsum("wxai,wxib->ab", lu12, u12)
    .add 60 (.ein [(5, [0, 1, 2, 3]), (9, [0, 1, 3, 4])] [2, 4]) 1 1,
    -- 2089: x26 += einsum("ab->ab", x24) * 0.5
    .add 58 (.ein [(60, [0, 1])] [0, 1]) 1 2,
    -- 2090: x34 += einsum("ab->ab", x24) * 0.5
    .add 59 (.ein [(60, [0, 1])] [0, 1]) 1 2,
    -- 2091: del x24
    .del 60,
    -- 2092: x25 = np.zeros((nvir, nvir), dtype=types[float])
    .zeros 61 [1, 1],
    -- 2093: x25 -= einsum("abij,ijca->bc", l2, t2)
    .add 61 (.ein [(11, [0, 1, 2, 3]), (12, [2, 3, 4, 0])] [1, 4]) (-1) 1,
    -- 2094: x26 += einsum("ab->ab", x25) * 0.5
    .add 58 (.ein [(61, [0, 1])] [0, 1]) 1 2,
    -- 2095: rdm_eb_des_ov += einsum("ab,wia->wib", x26, u11) * -1
    .add 31 (.ein [(58, [0, 1]), (4, [2, 3, 0])] [2, 3, 1]) (-1) 1,
    -- 2096: del x26
    .del 58,
    -- 2097: x34 += einsum("ab->ab", x25) * 0.5
    .add 59 (.ein [(61, [0, 1])] [0, 1]) 1 2,
    -- 2098: del x25
    .del 61,
    -- 2099: x29 = np.zeros((nbos, nbos), dtype=types[float])
    .zeros 62 [2, 2],
    -- 2100: x29 += einsum("wx,yw->xy", ls2, s2)
    .add 62 (.ein [(15, [0, 1]), (6, [2, 0])] [1, 2]) 1 1,
    -- 2101: x29 += einsum("wai,xia->wx", lu11, u11)
    .add 62 (.ein [(8, [0, 1, 2]), (4, [3, 2, 1])] [0, 3]) 1 1,
    -- 2102: x29 += einsum("wxai,ywia->xy", lu12, u12)
    .add 62 (.ein [(5, [0, 1, 2, 3]), (9, [4, 0, 3, 2])] [1, 4]) 1 1,
    -- 2103: rdm_eb_des_ov += einsum("wx,wia->xia", x29, u11)
    .add 31 (.ein [(62, [0, 1]), (4, [0, 2, 3])] [1, 2, 3]) 1 1,
    -- 2104: del x29
    .del 62,
    -- 2105: x30 = np.zeros((nocc, nocc, nocc, nvir), dtype=types[float])
    .zeros 63 [0, 0, 0, 1],
    -- 2106: x30 += einsum("ia,bajk->jkib", t1, l2)
    .add 63 (.ein [(7, [0, 1]), (11, [2, 1, 3, 4])] [3, 4, 0, 2]) 1 1,
    -- 2107: x33 += einsum("ijab,ijkb->ka", t2, x30) * -0.5000000000000003
    .add 32 (.ein [(12, [0, 1, 2, 3]), (63, [0, 1, 4, 3])] [4, 2]) (-1) 2,
    -- 2108: del x30
    .del 63,
    -- 2109: x33 += einsum("ia->ia", t1) * -1
    .add 32 (.ein [(7, [0, 1])] [0, 1]) (-1) 1,
    -- 2110: x33 += einsum("w,wia->ia", ls1, u11) * -1
    .add 32 (.ein [(14, [0]), (4, [0, 1, 2])] [1, 2]) (-1) 1,
    -- 2111: x33 += einsum("wx,wxia->ia", ls2, u12) * -0.5
    .add 32 (.ein [(15, [0, 1]), (9, [0, 1, 2, 3])] [2, 3]) (-1) 2,
    -- 2112: x33 += einsum("ai,jiba->jb", l1, t2) * -1
    .add 32 (.ein [(10, [0, 1]), (12, [2, 1, 3, 0])] [2, 3]) (-1) 1,
    -- 2113: rdm_eb_des_ov += einsum("w,ia->wia", s1, x33) * -1
    .add 31 (.ein [(13, [0]), (32, [1, 2])] [0, 1, 2]) (-1) 1,
    -- 2114: del x33
    .del 32,
    -- 2115: x34 += einsum("ai,ib->ab", l1, t1)
    .add 59 (.ein [(10, [0, 1]), (7, [1, 2])] [0, 2]) 1 1,
    -- 2116: rdm_eb_des_vv += einsum("w,ab->wab", s1, x34)
    .add 37 (.ein [(13, [0]), (59, [1, 2])] [0, 1, 2]) 1 1,
    -- 2117: del x34
    .del 59,
    -- 2118: rdm_eb_cre_oo += einsum("w,ij->wji", ls1, delta_oo)
    .add 28 (.ein [(14, [0]), (20, [1, 2])] [0, 2, 1]) 1 1,
    -- 2119: rdm_eb_cre_ov += einsum("w,ia->wia", ls1, t1)
    .add 30 (.ein [(14, [0]), (7, [1, 2])] [0, 1, 2]) 1 1,
    -- 2120: rdm_eb_cre_ov += einsum("wx,xia->wia", ls2, u11)
    .add 30 (.ein [(15, [0, 1]), (4, [1, 2, 3])] [0, 2, 3]) 1 1,
    -- 2121: rdm_eb_cre_ov += einsum("wai,jiba->wjb", lu11, t2)
    .add 30 (.ein [(8, [0, 1, 2]), (12, [3, 2, 4, 1])] [0, 3, 4]) 1 1,
    -- 2122: rdm_eb_cre_vo = np.zeros((nbos, nvir, nocc), dtype=types[float])
    .zeros 64 [2, 1, 0],
    -- 2123: rdm_eb_cre_vo += einsum("wai->wai", lu11)
    .add 64 (.ein [(8, [0, 1, 2])] [0, 1, 2]) 1 1,
    -- 2124: rdm_eb_cre_vv += einsum("ia,wbi->wba", t1, lu11)
    .add 36 (.ein [(7, [0, 1]), (8, [2, 3, 0])] [2, 3, 1]) 1 1,
    -- 2125: rdm_eb_des_ov += einsum("wia->wia", u11)
    .add 31 (.ein [(4, [0, 1, 2])] [0, 1, 2]) 1 1,
    -- 2126: rdm_eb_des_ov += einsum("w,xwia->xia", ls1, u12)
    .add 31 (.ein [(14, [0]), (9, [1, 0, 2, 3])] [1, 2, 3]) 1 1,
    -- 2127: rdm_eb_des_vo += einsum("w,ai->wai", s1, l1)
    .add 42 (.ein [(13, [0]), (10, [1, 2])] [0, 1, 2]) 1 1,
    -- 2128: rdm_eb_des_vv += einsum("ai,wib->wab", l1, u11)
    .add 37 (.ein [(10, [0, 1]), (4, [2, 1, 3])] [2, 0, 3]) 1 1,
    -- 2129: rdm_eb_des_vv += einsum("wai,xwib->xab", lu11, u12)
    .add 37 (.ein [(8, [0, 1, 2]), (9, [3, 0, 2, 4])] [3, 1, 4]) 1 1
  ]
  ret := [(chars! "rdm_eb.0.oo", 28), (chars! "rdm_eb.0.ov", 30), (chars! "rdm_eb.0.vo", 64), (chars! "rdm_eb.0.vv", 36), (chars! "rdm_eb.1.oo", 26), (chars! "rdm_eb.1.ov", 31), (chars! "rdm_eb.1.vo", 42), (chars! "rdm_eb.1.vv", 37)]

end Ebcc.Gen.GCCSD_SD_1_2
