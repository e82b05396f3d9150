import Verif.Model.GenCode
/-!
Functions of `ebcc/codegen/GCCSD_S_1_1.py`, written by `tools/gencode.py`.  Comments give the
number and the text of the line of each statement.
-/

set_option maxRecDepth 100000

namespace Ebcc.Gen.GCCSD_S_1_1

/-- codegen/GCCSD_S_1_1.py:7-23 `energy`. -/
def energy : GenFun where
  args := [chars! "t2", chars! "t1", chars! "v.oovv", chars! "u11", chars! "s1", chars! "g.bov", chars! "f.ov", chars! "G"]
  body := [
    -- 9: x0 = np.zeros((nocc, nocc, nvir, nvir), dtype=types[float])
    .zeros 8 [0, 0, 1, 1],
    -- 10: x0 += einsum("ijab->jiba", t2)
    .add 8 (.ein [(0, [0, 1, 2, 3])] [1, 0, 3, 2]) 1 1,
    -- 11: x0 += einsum("ia,jb->ijab", t1, t1) * 2
    .add 8 (.ein [(1, [0, 1]), (1, [2, 3])] [0, 2, 1, 3]) 2 1,
    -- 12: e_cc = 0
    .zeros 9 [],
    -- 13: e_cc += einsum("ijab,ijab->", v.oovv, x0) * 0.25
    .add 9 (.ein [(2, [0, 1, 2, 3]), (8, [0, 1, 2, 3])] []) 1 4,
    -- 14: del x0
    .del 8,
    -- 15: x1 = np.zeros((nbos, nocc, nvir), dtype=types[float])
    .zeros 10 [2, 0, 1],
    -- 16: x1 += einsum("wia->wia", u11)
    .add 10 (.ein [(3, [0, 1, 2])] [0, 1, 2]) 1 1,
    -- 17: x1 += einsum("w,ia->wia", s1, t1)
    .add 10 (.ein [(4, [0]), (1, [1, 2])] [0, 1, 2]) 1 1,
    -- 18: e_cc += einsum("wia,wia->", g.bov, x1)
    .add 9 (.ein [(5, [0, 1, 2]), (10, [0, 1, 2])] []) 1 1,
    -- 19: del x1
    .del 10,
    -- 20: e_cc += einsum("ia,ia->", f.ov, t1)
    .add 9 (.ein [(6, [0, 1]), (1, [0, 1])] []) 1 1,
    -- 21: e_cc += einsum("w,w->", G, s1)
    .add 9 (.ein [(7, [0]), (4, [0])] []) 1 1
  ]
  ret := [(chars! "e_cc", 9)]

/-- codegen/GCCSD_S_1_1.py:25-360 `update_amps`. -/
def update_amps : GenFun where
  args := [chars! "g.boo", chars! "g.bvo", chars! "g.bov", chars! "g.bvv", chars! "t1", chars! "v.oovv", chars! "t2", chars! "v.ooov", chars! "s1", chars! "f.ov", chars! "u11", chars! "f.oo", chars! "v.ovvv", chars! "f.vv", chars! "G", chars! "v.vvvv", chars! "v.ovov", chars! "v.vvov", chars! "v.oooo", chars! "v.ovoo", chars! "w", chars! "f.vo", chars! "v.vvoo"]
  body := [
    -- 27: gc = Namespace(
    .set 23 (.tr 0 [0, 2, 1]) 1 1,
    .set 24 (.tr 1 [0, 2, 1]) 1 1,
    .set 25 (.tr 2 [0, 2, 1]) 1 1,
    .set 26 (.tr 3 [0, 2, 1]) 1 1,
    -- 35: x0 = np.zeros((nocc, nocc, nocc, nvir), dtype=types[float])
    .zeros 27 [0, 0, 0, 1],
    -- 36: x0 += einsum("ia,jkba->ijkb", t1, v.oovv)
    .add 27 (.ein [(4, [0, 1]), (5, [2, 3, 4, 1])] [0, 2, 3, 4]) 1 1,
    -- 37: x1 = np.zeros((nocc, nocc, nocc, nvir), dtype=types[float])
    .zeros 28 [0, 0, 0, 1],
    -- 38: x1 += einsum("ijka->ikja", x0) * -1
    .add 28 (.ein [(27, [0, 1, 2, 3])] [0, 2, 1, 3]) (-1) 1,
    -- 39: x29 = np.zeros((nocc, nocc, nocc, nvir), dtype=types[float])
    .zeros 29 [0, 0, 0, 1],
    -- 40: x29 += einsum("ijab,kjlb->kila", t2, x0)
    .add 29 (.ein [(6, [0, 1, 2, 3]), (27, [4, 1, 5, 3])] [4, 0, 5, 2]) 1 1,
    -- 41: x30 = np.zeros((nocc, nocc, nocc, nvir), dtype=types[float])
    .zeros 30 [0, 0, 0, 1],
    -- 42: x30 -= einsum("ijka->ikja", x29)
    .add 30 (.ein [(29, [0, 1, 2, 3])] [0, 2, 1, 3]) (-1) 1,
    -- 43: del x29
    .del 29,
    -- 44: x64 = np.zeros((nocc, nocc, nocc, nocc), dtype=types[float])
    .zeros 31 [0, 0, 0, 0],
    -- 45: x64 += einsum("ia,jkla->jilk", t1, x0)
    .add 31 (.ein [(4, [0, 1]), (27, [2, 3, 4, 1])] [2, 0, 4, 3]) 1 1,
    -- 46: del x0
    .del 27,
    -- 47: x65 = np.zeros((nocc, nocc, nocc, nocc), dtype=types[float])
    .zeros 32 [0, 0, 0, 0],
    -- 48: x65 += einsum("ijkl->klji", x64) * -1
    .add 32 (.ein [(31, [0, 1, 2, 3])] [2, 3, 1, 0]) (-1) 1,
    -- 49: x66 = np.zeros((nocc, nocc, nocc, nocc), dtype=types[float])
    .zeros 33 [0, 0, 0, 0],
    -- 50: x66 += einsum("ijkl->klji", x64) * -1
    .add 33 (.ein [(31, [0, 1, 2, 3])] [2, 3, 1, 0]) (-1) 1,
    -- 51: del x64
    .del 31,
    -- 52: x1 += einsum("ijka->kjia", v.ooov)
    .add 28 (.ein [(7, [0, 1, 2, 3])] [2, 1, 0, 3]) 1 1,
    -- 53: t1new = np.zeros((nocc, nvir), dtype=types[float])
    .zeros 34 [0, 1],
    -- 54: t1new += einsum("ijab,kija->kb", t2, x1) * -0.5
    .add 34 (.ein [(6, [0, 1, 2, 3]), (28, [4, 0, 1, 2])] [4, 3]) (-1) 2,
    -- 55: del x1
    .del 28,
    -- 56: x2 = np.zeros((nocc, nvir), dtype=types[float])
    .zeros 35 [0, 1],
    -- 57: x2 += einsum("w,wia->ia", s1, g.bov)
    .add 35 (.ein [(8, [0]), (2, [0, 1, 2])] [1, 2]) 1 1,
    -- 58: x4 = np.zeros((nocc, nvir), dtype=types[float])
    .zeros 36 [0, 1],
    -- 59: x4 += einsum("ia->ia", x2)
    .add 36 (.ein [(35, [0, 1])] [0, 1]) 1 1,
    -- 60: x11 = np.zeros((nocc, nvir), dtype=types[float])
    .zeros 37 [0, 1],
    -- 61: x11 += einsum("ia->ia", x2)
    .add 37 (.ein [(35, [0, 1])] [0, 1]) 1 1,
    -- 62: x71 = np.zeros((nocc, nvir), dtype=types[float])
    .zeros 38 [0, 1],
    -- 63: x71 += einsum("ia->ia", x2)
    .add 38 (.ein [(35, [0, 1])] [0, 1]) 1 1,
    -- 64: del x2
    .del 35,
    -- 65: x3 = np.zeros((nocc, nvir), dtype=types[float])
    .zeros 39 [0, 1],
    -- 66: x3 += einsum("ia,jiba->jb", t1, v.oovv)
    .add 39 (.ein [(4, [0, 1]), (5, [2, 0, 3, 1])] [2, 3]) 1 1,
    -- 67: x4 += einsum("ia->ia", x3)
    .add 36 (.ein [(39, [0, 1])] [0, 1]) 1 1,
    -- 68: x11 += einsum("ia->ia", x3)
    .add 37 (.ein [(39, [0, 1])] [0, 1]) 1 1,
    -- 69: x70 = np.zeros((nvir, nvir), dtype=types[float])
    .zeros 40 [1, 1],
    -- 70: x70 += einsum("ia,ib->ab", t1, x3)
    .add 40 (.ein [(4, [0, 1]), (39, [0, 2])] [1, 2]) 1 1,
    -- 71: del x3
    .del 39,
    -- 72: x4 += einsum("ia->ia", f.ov)
    .add 36 (.ein [(9, [0, 1])] [0, 1]) 1 1,
    -- 73: x37 = np.zeros((nocc, nocc), dtype=types[float])
    .zeros 41 [0, 0],
    -- 74: x37 += einsum("ia,ja->ij", t1, x4)
    .add 41 (.ein [(4, [0, 1]), (36, [2, 1])] [0, 2]) 1 1,
    -- 75: x38 = np.zeros((nocc, nocc), dtype=types[float])
    .zeros 42 [0, 0],
    -- 76: x38 += einsum("ij->ij", x37)
    .add 42 (.ein [(41, [0, 1])] [0, 1]) 1 1,
    -- 77: del x37
    .del 41,
    -- 78: x51 = np.zeros((nocc, nocc, nocc, nvir), dtype=types[float])
    .zeros 43 [0, 0, 0, 1],
    -- 79: x51 += einsum("ia,jkab->jkib", x4, t2)
    .add 43 (.ein [(36, [0, 1]), (6, [2, 3, 1, 4])] [2, 3, 0, 4]) 1 1,
    -- 80: x52 = np.zeros((nocc, nocc, nocc, nvir), dtype=types[float])
    .zeros 44 [0, 0, 0, 1],
    -- 81: x52 += einsum("ijka->kjia", x51)
    .add 44 (.ein [(43, [0, 1, 2, 3])] [2, 1, 0, 3]) 1 1,
    -- 82: del x51
    .del 43,
    -- 83: t1new += einsum("ia,ijab->jb", x4, t2)
    .add 34 (.ein [(36, [0, 1]), (6, [0, 2, 1, 3])] [2, 3]) 1 1,
    -- 84: s1new = np.zeros((nbos), dtype=types[float])
    .zeros 45 [2],
    -- 85: s1new += einsum("ia,wia->w", x4, u11)
    .add 45 (.ein [(36, [0, 1]), (10, [2, 0, 1])] [2]) 1 1,
    -- 86: del x4
    .del 36,
    -- 87: x5 = np.zeros((nbos, nocc, nocc), dtype=types[float])
    .zeros 46 [2, 0, 0],
    -- 88: x5 += einsum("ia,wja->wji", t1, g.bov)
    .add 46 (.ein [(4, [0, 1]), (2, [2, 3, 1])] [2, 3, 0]) 1 1,
    -- 89: x6 = np.zeros((nbos, nocc, nocc), dtype=types[float])
    .zeros 47 [2, 0, 0],
    -- 90: x6 += einsum("wij->wij", x5)
    .add 47 (.ein [(46, [0, 1, 2])] [0, 1, 2]) 1 1,
    -- 91: del x5
    .del 46,
    -- 92: x6 += einsum("wij->wij", g.boo)
    .add 47 (.ein [(0, [0, 1, 2])] [0, 1, 2]) 1 1,
    -- 93: x24 = np.zeros((nbos, nocc, nvir), dtype=types[float])
    .zeros 48 [2, 0, 1],
    -- 94: x24 += einsum("ia,wij->wja", t1, x6)
    .add 48 (.ein [(4, [0, 1]), (47, [2, 0, 3])] [2, 3, 1]) 1 1,
    -- 95: x25 = np.zeros((nbos, nocc, nvir), dtype=types[float])
    .zeros 49 [2, 0, 1],
    -- 96: x25 -= einsum("wia->wia", x24)
    .add 49 (.ein [(48, [0, 1, 2])] [0, 1, 2]) (-1) 1,
    -- 97: del x24
    .del 48,
    -- 98: t1new -= einsum("wia,wij->ja", u11, x6)
    .add 34 (.ein [(10, [0, 1, 2]), (47, [0, 1, 3])] [3, 2]) (-1) 1,
    -- 99: del x6
    .del 47,
    -- 100: x7 = np.zeros((nocc, nocc), dtype=types[float])
    .zeros 50 [0, 0],
    -- 101: x7 += einsum("w,wij->ij", s1, g.boo)
    .add 50 (.ein [(8, [0]), (0, [0, 1, 2])] [1, 2]) 1 1,
    -- 102: x13 = np.zeros((nocc, nocc), dtype=types[float])
    .zeros 51 [0, 0],
    -- 103: x13 += einsum("ij->ij", x7)
    .add 51 (.ein [(50, [0, 1])] [0, 1]) 1 1,
    -- 104: x38 += einsum("ij->ji", x7)
    .add 42 (.ein [(50, [0, 1])] [1, 0]) 1 1,
    -- 105: del x7
    .del 50,
    -- 106: x8 = np.zeros((nocc, nocc), dtype=types[float])
    .zeros 52 [0, 0],
    -- 107: x8 += einsum("wia,wja->ij", g.bov, u11)
    .add 52 (.ein [(2, [0, 1, 2]), (10, [0, 3, 2])] [1, 3]) 1 1,
    -- 108: x13 += einsum("ij->ij", x8)
    .add 51 (.ein [(52, [0, 1])] [0, 1]) 1 1,
    -- 109: x40 = np.zeros((nocc, nocc), dtype=types[float])
    .zeros 53 [0, 0],
    -- 110: x40 += einsum("ij->ij", x8)
    .add 53 (.ein [(52, [0, 1])] [0, 1]) 1 1,
    -- 111: del x8
    .del 52,
    -- 112: x9 = np.zeros((nocc, nocc), dtype=types[float])
    .zeros 54 [0, 0],
    -- 113: x9 -= einsum("ia,ijka->jk", t1, v.ooov)
    .add 54 (.ein [(4, [0, 1]), (7, [0, 2, 3, 1])] [2, 3]) (-1) 1,
    -- 114: x13 += einsum("ij->ij", x9)
    .add 51 (.ein [(54, [0, 1])] [0, 1]) 1 1,
    -- 115: x40 += einsum("ij->ij", x9)
    .add 53 (.ein [(54, [0, 1])] [0, 1]) 1 1,
    -- 116: del x9
    .del 54,
    -- 117: x41 = np.zeros((nocc, nocc, nvir, nvir), dtype=types[float])
    .zeros 55 [0, 0, 1, 1],
    -- 118: x41 += einsum("ij,ikab->kjab", x40, t2)
    .add 55 (.ein [(53, [0, 1]), (6, [0, 2, 3, 4])] [2, 1, 3, 4]) 1 1,
    -- 119: del x40
    .del 53,
    -- 120: x42 = np.zeros((nocc, nocc, nvir, nvir), dtype=types[float])
    .zeros 56 [0, 0, 1, 1],
    -- 121: x42 -= einsum("ijab->ijba", x41)
    .add 56 (.ein [(55, [0, 1, 2, 3])] [0, 1, 3, 2]) (-1) 1,
    -- 122: del x41
    .del 55,
    -- 123: x10 = np.zeros((nocc, nocc), dtype=types[float])
    .zeros 57 [0, 0],
    -- 124: x10 -= einsum("ijab,jkab->ik", t2, v.oovv)
    .add 57 (.ein [(6, [0, 1, 2, 3]), (5, [1, 4, 2, 3])] [0, 4]) (-1) 1,
    -- 125: x13 += einsum("ij->ji", x10) * 0.5
    .add 51 (.ein [(57, [0, 1])] [1, 0]) 1 2,
    -- 126: x44 = np.zeros((nocc, nocc, nvir, nvir), dtype=types[float])
    .zeros 58 [0, 0, 1, 1],
    -- 127: x44 += einsum("ij,kjab->kiab", x10, t2)
    .add 58 (.ein [(57, [0, 1]), (6, [2, 1, 3, 4])] [2, 0, 3, 4]) 1 1,
    -- 128: del x10
    .del 57,
    -- 129: x45 = np.zeros((nocc, nocc, nvir, nvir), dtype=types[float])
    .zeros 59 [0, 0, 1, 1],
    -- 130: x45 += einsum("ijab->ijba", x44) * -0.5
    .add 59 (.ein [(58, [0, 1, 2, 3])] [0, 1, 3, 2]) (-1) 2,
    -- 131: del x44
    .del 58,
    -- 132: x11 += einsum("ia->ia", f.ov)
    .add 37 (.ein [(9, [0, 1])] [0, 1]) 1 1,
    -- 133: x12 = np.zeros((nocc, nocc), dtype=types[float])
    .zeros 60 [0, 0],
    -- 134: x12 += einsum("ia,ja->ij", t1, x11)
    .add 60 (.ein [(4, [0, 1]), (37, [2, 1])] [0, 2]) 1 1,
    -- 135: del x11
    .del 37,
    -- 136: x13 += einsum("ij->ji", x12)
    .add 51 (.ein [(60, [0, 1])] [1, 0]) 1 1,
    -- 137: del x12
    .del 60,
    -- 138: x13 += einsum("ij->ij", f.oo)
    .add 51 (.ein [(11, [0, 1])] [0, 1]) 1 1,
    -- 139: t1new += einsum("ia,ij->ja", t1, x13) * -1
    .add 34 (.ein [(4, [0, 1]), (51, [0, 2])] [2, 1]) (-1) 1,
    -- 140: u11new = np.zeros((nbos, nocc, nvir), dtype=types[float])
    .zeros 61 [2, 0, 1],
    -- 141: u11new += einsum("ij,wia->wja", x13, u11) * -1
    .add 61 (.ein [(51, [0, 1]), (10, [2, 0, 3])] [2, 1, 3]) (-1) 1,
    -- 142: del x13
    .del 51,
    -- 143: x14 = np.zeros((nvir, nvir), dtype=types[float])
    .zeros 62 [1, 1],
    -- 144: x14 += einsum("w,wab->ab", s1, g.bvv)
    .add 62 (.ein [(8, [0]), (3, [0, 1, 2])] [1, 2]) 1 1,
    -- 145: x16 = np.zeros((nvir, nvir), dtype=types[float])
    .zeros 63 [1, 1],
    -- 146: x16 += einsum("ab->ab", x14)
    .add 63 (.ein [(62, [0, 1])] [0, 1]) 1 1,
    -- 147: x47 = np.zeros((nocc, nocc, nvir, nvir), dtype=types[float])
    .zeros 64 [0, 0, 1, 1],
    -- 148: x47 += einsum("ab,ijcb->ijac", x14, t2)
    .add 64 (.ein [(62, [0, 1]), (6, [2, 3, 4, 1])] [2, 3, 0, 4]) 1 1,
    -- 149: x57 = np.zeros((nocc, nocc, nvir, nvir), dtype=types[float])
    .zeros 65 [0, 0, 1, 1],
    -- 150: x57 += einsum("ijab->ijab", x47)
    .add 65 (.ein [(64, [0, 1, 2, 3])] [0, 1, 2, 3]) 1 1,
    -- 151: del x47
    .del 64,
    -- 152: x70 += einsum("ab->ab", x14) * -1
    .add 40 (.ein [(62, [0, 1])] [0, 1]) (-1) 1,
    -- 153: del x14
    .del 62,
    -- 154: x15 = np.zeros((nvir, nvir), dtype=types[float])
    .zeros 66 [1, 1],
    -- 155: x15 -= einsum("ia,ibac->bc", t1, v.ovvv)
    .add 66 (.ein [(4, [0, 1]), (12, [0, 2, 1, 3])] [2, 3]) (-1) 1,
    -- 156: x16 -= einsum("ab->ab", x15)
    .add 63 (.ein [(66, [0, 1])] [0, 1]) (-1) 1,
    -- 157: x55 = np.zeros((nvir, nvir), dtype=types[float])
    .zeros 67 [1, 1],
    -- 158: x55 += einsum("ab->ab", x15)
    .add 67 (.ein [(66, [0, 1])] [0, 1]) 1 1,
    -- 159: x70 += einsum("ab->ab", x15)
    .add 40 (.ein [(66, [0, 1])] [0, 1]) 1 1,
    -- 160: del x15
    .del 66,
    -- 161: x16 += einsum("ab->ab", f.vv)
    .add 63 (.ein [(13, [0, 1])] [0, 1]) 1 1,
    -- 162: t1new += einsum("ia,ba->ib", t1, x16)
    .add 34 (.ein [(4, [0, 1]), (63, [2, 1])] [0, 2]) 1 1,
    -- 163: del x16
    .del 63,
    -- 164: x17 = np.zeros((nbos), dtype=types[float])
    .zeros 68 [2],
    -- 165: x17 += einsum("w->w", G)
    .add 68 (.ein [(14, [0])] [0]) 1 1,
    -- 166: x17 += einsum("ia,wia->w", t1, g.bov)
    .add 68 (.ein [(4, [0, 1]), (2, [2, 0, 1])] [2]) 1 1,
    -- 167: t1new += einsum("w,wia->ia", x17, u11)
    .add 34 (.ein [(68, [0]), (10, [0, 1, 2])] [1, 2]) 1 1,
    -- 168: del x17
    .del 68,
    -- 169: x18 = np.zeros((nocc, nvir, nvir, nvir), dtype=types[float])
    .zeros 69 [0, 1, 1, 1],
    -- 170: x18 += einsum("ia,bcda->ibcd", t1, v.vvvv)
    .add 69 (.ein [(4, [0, 1]), (15, [2, 3, 4, 1])] [0, 2, 3, 4]) 1 1,
    -- 171: t2new = np.zeros((nocc, nocc, nvir, nvir), dtype=types[float])
    .zeros 70 [0, 0, 1, 1],
    -- 172: t2new -= einsum("ia,jbca->ijcb", t1, x18)
    .add 70 (.ein [(4, [0, 1]), (69, [2, 3, 4, 1])] [0, 2, 4, 3]) (-1) 1,
    -- 173: del x18
    .del 69,
    -- 174: x19 = np.zeros((nocc, nocc, nvir, nvir), dtype=types[float])
    .zeros 71 [0, 0, 1, 1],
    -- 175: x19 += einsum("ijab,jckb->ikac", t2, v.ovov)
    .add 71 (.ein [(6, [0, 1, 2, 3]), (16, [1, 4, 5, 3])] [0, 5, 2, 4]) 1 1,
    -- 176: x32 = np.zeros((nocc, nocc, nvir, nvir), dtype=types[float])
    .zeros 72 [0, 0, 1, 1],
    -- 177: x32 -= einsum("ijab->ijab", x19)
    .add 72 (.ein [(71, [0, 1, 2, 3])] [0, 1, 2, 3]) (-1) 1,
    -- 178: del x19
    .del 71,
    -- 179: x20 = np.zeros((nocc, nocc, nvir, nvir), dtype=types[float])
    .zeros 73 [0, 0, 1, 1],
    -- 180: x20 += einsum("ia,jbca->ijbc", t1, v.ovvv)
    .add 73 (.ein [(4, [0, 1]), (12, [2, 3, 4, 1])] [0, 2, 3, 4]) 1 1,
    -- 181: x21 = np.zeros((nocc, nocc, nvir, nvir), dtype=types[float])
    .zeros 74 [0, 0, 1, 1],
    -- 182: x21 -= einsum("ijab,kjcb->kiac", t2, x20)
    .add 74 (.ein [(6, [0, 1, 2, 3]), (73, [4, 1, 5, 3])] [4, 0, 2, 5]) (-1) 1,
    -- 183: x32 += einsum("ijab->ijab", x21)
    .add 72 (.ein [(74, [0, 1, 2, 3])] [0, 1, 2, 3]) 1 1,
    -- 184: del x21
    .del 74,
    -- 185: x50 = np.zeros((nocc, nocc, nocc, nvir), dtype=types[float])
    .zeros 75 [0, 0, 0, 1],
    -- 186: x50 -= einsum("ia,jkba->jikb", t1, x20)
    .add 75 (.ein [(4, [0, 1]), (73, [2, 3, 4, 1])] [2, 0, 3, 4]) (-1) 1,
    -- 187: del x20
    .del 73,
    -- 188: x52 += einsum("ijka->kjia", x50)
    .add 44 (.ein [(75, [0, 1, 2, 3])] [2, 1, 0, 3]) 1 1,
    -- 189: del x50
    .del 75,
    -- 190: x53 = np.zeros((nocc, nocc, nvir, nvir), dtype=types[float])
    .zeros 76 [0, 0, 1, 1],
    -- 191: x53 += einsum("ia,ijkb->jkab", t1, x52)
    .add 76 (.ein [(4, [0, 1]), (44, [0, 2, 3, 4])] [2, 3, 1, 4]) 1 1,
    -- 192: del x52
    .del 44,
    -- 193: x57 += einsum("ijab->jiab", x53)
    .add 65 (.ein [(76, [0, 1, 2, 3])] [1, 0, 2, 3]) 1 1,
    -- 194: del x53
    .del 76,
    -- 195: x22 = np.zeros((nbos, nocc, nvir), dtype=types[float])
    .zeros 77 [2, 0, 1],
    -- 196: x22 += einsum("ia,wba->wib", t1, g.bvv)
    .add 77 (.ein [(4, [0, 1]), (3, [2, 3, 1])] [2, 0, 3]) 1 1,
    -- 197: x25 += einsum("wia->wia", x22)
    .add 49 (.ein [(77, [0, 1, 2])] [0, 1, 2]) 1 1,
    -- 198: del x22
    .del 77,
    -- 199: x23 = np.zeros((nbos, nocc, nvir), dtype=types[float])
    .zeros 78 [2, 0, 1],
    -- 200: x23 += einsum("wia,jiba->wjb", g.bov, t2)
    .add 78 (.ein [(2, [0, 1, 2]), (6, [3, 1, 4, 2])] [0, 3, 4]) 1 1,
    -- 201: x25 += einsum("wia->wia", x23)
    .add 49 (.ein [(78, [0, 1, 2])] [0, 1, 2]) 1 1,
    -- 202: del x23
    .del 78,
    -- 203: x25 += einsum("wai->wia", g.bvo)
    .add 49 (.ein [(1, [0, 1, 2])] [0, 2, 1]) 1 1,
    -- 204: x26 = np.zeros((nocc, nocc, nvir, nvir), dtype=types[float])
    .zeros 79 [0, 0, 1, 1],
    -- 205: x26 += einsum("wia,wjb->ijab", u11, x25)
    .add 79 (.ein [(10, [0, 1, 2]), (49, [0, 3, 4])] [1, 3, 2, 4]) 1 1,
    -- 206: del x25
    .del 49,
    -- 207: x32 += einsum("ijab->jiba", x26)
    .add 72 (.ein [(79, [0, 1, 2, 3])] [1, 0, 3, 2]) 1 1,
    -- 208: del x26
    .del 79,
    -- 209: x27 = np.zeros((nocc, nocc, nocc, nvir), dtype=types[float])
    .zeros 80 [0, 0, 0, 1],
    -- 210: x27 += einsum("ia,jbka->ijkb", t1, v.ovov)
    .add 80 (.ein [(4, [0, 1]), (16, [2, 3, 4, 1])] [0, 2, 4, 3]) 1 1,
    -- 211: x30 += einsum("ijka->ijka", x27)
    .add 30 (.ein [(80, [0, 1, 2, 3])] [0, 1, 2, 3]) 1 1,
    -- 212: del x27
    .del 80,
    -- 213: x28 = np.zeros((nocc, nocc, nocc, nvir), dtype=types[float])
    .zeros 81 [0, 0, 0, 1],
    -- 214: x28 -= einsum("ijab,jklb->ikla", t2, v.ooov)
    .add 81 (.ein [(6, [0, 1, 2, 3]), (7, [1, 4, 5, 3])] [0, 4, 5, 2]) (-1) 1,
    -- 215: x30 += einsum("ijka->ijka", x28)
    .add 30 (.ein [(81, [0, 1, 2, 3])] [0, 1, 2, 3]) 1 1,
    -- 216: del x28
    .del 81,
    -- 217: x31 = np.zeros((nocc, nocc, nvir, nvir), dtype=types[float])
    .zeros 82 [0, 0, 1, 1],
    -- 218: x31 += einsum("ia,jikb->jkab", t1, x30)
    .add 82 (.ein [(4, [0, 1]), (30, [2, 0, 3, 4])] [2, 3, 1, 4]) 1 1,
    -- 219: del x30
    .del 30,
    -- 220: x32 += einsum("ijab->ijab", x31)
    .add 72 (.ein [(82, [0, 1, 2, 3])] [0, 1, 2, 3]) 1 1,
    -- 221: del x31
    .del 82,
    -- 222: t2new += einsum("ijab->ijab", x32)
    .add 70 (.ein [(72, [0, 1, 2, 3])] [0, 1, 2, 3]) 1 1,
    -- 223: t2new -= einsum("ijab->ijba", x32)
    .add 70 (.ein [(72, [0, 1, 2, 3])] [0, 1, 3, 2]) (-1) 1,
    -- 224: t2new -= einsum("ijab->jiab", x32)
    .add 70 (.ein [(72, [0, 1, 2, 3])] [1, 0, 2, 3]) (-1) 1,
    -- 225: t2new += einsum("ijab->jiba", x32)
    .add 70 (.ein [(72, [0, 1, 2, 3])] [1, 0, 3, 2]) 1 1,
    -- 226: del x32
    .del 72,
    -- 227: x33 = np.zeros((nocc, nocc, nvir, nvir), dtype=types[float])
    .zeros 83 [0, 0, 1, 1],
    -- 228: x33 += einsum("ia,bcja->ijbc", t1, v.vvov)
    .add 83 (.ein [(4, [0, 1]), (17, [2, 3, 4, 1])] [0, 4, 2, 3]) 1 1,
    -- 229: x42 += einsum("ijab->ijba", x33)
    .add 56 (.ein [(83, [0, 1, 2, 3])] [0, 1, 3, 2]) 1 1,
    -- 230: del x33
    .del 83,
    -- 231: x34 = np.zeros((nocc, nocc, nocc, nocc), dtype=types[float])
    .zeros 84 [0, 0, 0, 0],
    -- 232: x34 += einsum("ia,jkla->ijkl", t1, v.ooov)
    .add 84 (.ein [(4, [0, 1]), (7, [2, 3, 4, 1])] [0, 2, 3, 4]) 1 1,
    -- 233: x35 = np.zeros((nocc, nocc, nocc, nvir), dtype=types[float])
    .zeros 85 [0, 0, 0, 1],
    -- 234: x35 += einsum("ia,jkil->jkla", t1, x34)
    .add 85 (.ein [(4, [0, 1]), (84, [2, 3, 0, 4])] [2, 3, 4, 1]) 1 1,
    -- 235: x36 = np.zeros((nocc, nocc, nvir, nvir), dtype=types[float])
    .zeros 86 [0, 0, 1, 1],
    -- 236: x36 -= einsum("ia,jikb->jkba", t1, x35)
    .add 86 (.ein [(4, [0, 1]), (85, [2, 0, 3, 4])] [2, 3, 4, 1]) (-1) 1,
    -- 237: del x35
    .del 85,
    -- 238: x42 += einsum("ijab->ijba", x36)
    .add 56 (.ein [(86, [0, 1, 2, 3])] [0, 1, 3, 2]) 1 1,
    -- 239: del x36
    .del 86,
    -- 240: x43 = np.zeros((nocc, nocc, nvir, nvir), dtype=types[float])
    .zeros 87 [0, 0, 1, 1],
    -- 241: x43 += einsum("ijab,kijl->klab", t2, x34)
    .add 87 (.ein [(6, [0, 1, 2, 3]), (84, [4, 0, 1, 5])] [4, 5, 2, 3]) 1 1,
    -- 242: del x34
    .del 84,
    -- 243: x45 += einsum("ijab->ijba", x43) * -0.5
    .add 59 (.ein [(87, [0, 1, 2, 3])] [0, 1, 3, 2]) (-1) 2,
    -- 244: del x43
    .del 87,
    -- 245: t2new += einsum("ijab->ijab", x45) * -1
    .add 70 (.ein [(59, [0, 1, 2, 3])] [0, 1, 2, 3]) (-1) 1,
    -- 246: t2new += einsum("ijab->jiab", x45)
    .add 70 (.ein [(59, [0, 1, 2, 3])] [1, 0, 2, 3]) 1 1,
    -- 247: del x45
    .del 59,
    -- 248: x38 += einsum("ij->ji", f.oo)
    .add 42 (.ein [(11, [0, 1])] [1, 0]) 1 1,
    -- 249: x39 = np.zeros((nocc, nocc, nvir, nvir), dtype=types[float])
    .zeros 88 [0, 0, 1, 1],
    -- 250: x39 += einsum("ij,jkab->kiab", x38, t2)
    .add 88 (.ein [(42, [0, 1]), (6, [1, 2, 3, 4])] [2, 0, 3, 4]) 1 1,
    -- 251: del x38
    .del 42,
    -- 252: x42 += einsum("ijab->jiba", x39)
    .add 56 (.ein [(88, [0, 1, 2, 3])] [1, 0, 3, 2]) 1 1,
    -- 253: del x39
    .del 88,
    -- 254: t2new += einsum("ijab->ijab", x42)
    .add 70 (.ein [(56, [0, 1, 2, 3])] [0, 1, 2, 3]) 1 1,
    -- 255: t2new -= einsum("ijab->jiab", x42)
    .add 70 (.ein [(56, [0, 1, 2, 3])] [1, 0, 2, 3]) (-1) 1,
    -- 256: del x42
    .del 56,
    -- 257: x46 = np.zeros((nocc, nocc, nvir, nvir), dtype=types[float])
    .zeros 89 [0, 0, 1, 1],
    -- 258: x46 += einsum("ab,ijcb->ijac", f.vv, t2)
    .add 89 (.ein [(13, [0, 1]), (6, [2, 3, 4, 1])] [2, 3, 0, 4]) 1 1,
    -- 259: t2new += einsum("ijab->jiab", x46)
    .add 70 (.ein [(89, [0, 1, 2, 3])] [1, 0, 2, 3]) 1 1,
    -- 260: t2new -= einsum("ijab->jiba", x46)
    .add 70 (.ein [(89, [0, 1, 2, 3])] [1, 0, 3, 2]) (-1) 1,
    -- 261: del x46
    .del 89,
    -- 262: x48 = np.zeros((nocc, nocc, nvir, nvir), dtype=types[float])
    .zeros 90 [0, 0, 1, 1],
    -- 263: x48 += einsum("ijab,jkbc->ikac", t2, v.oovv)
    .add 90 (.ein [(6, [0, 1, 2, 3]), (5, [1, 4, 3, 5])] [0, 4, 2, 5]) 1 1,
    -- 264: x49 = np.zeros((nocc, nocc, nvir, nvir), dtype=types[float])
    .zeros 91 [0, 0, 1, 1],
    -- 265: x49 += einsum("ijab,kjcb->ikac", t2, x48)
    .add 91 (.ein [(6, [0, 1, 2, 3]), (90, [4, 1, 5, 3])] [0, 4, 2, 5]) 1 1,
    -- 266: del x48
    .del 90,
    -- 267: x57 -= einsum("ijab->ijab", x49)
    .add 65 (.ein [(91, [0, 1, 2, 3])] [0, 1, 2, 3]) (-1) 1,
    -- 268: del x49
    .del 91,
    -- 269: x54 = np.zeros((nvir, nvir), dtype=types[float])
    .zeros 92 [1, 1],
    -- 270: x54 += einsum("wia,wib->ab", g.bov, u11)
    .add 92 (.ein [(2, [0, 1, 2]), (10, [0, 1, 3])] [2, 3]) 1 1,
    -- 271: x55 += einsum("ab->ba", x54)
    .add 67 (.ein [(92, [0, 1])] [1, 0]) 1 1,
    -- 272: x56 = np.zeros((nocc, nocc, nvir, nvir), dtype=types[float])
    .zeros 93 [0, 0, 1, 1],
    -- 273: x56 += einsum("ab,ijbc->ijca", x55, t2)
    .add 93 (.ein [(67, [0, 1]), (6, [2, 3, 1, 4])] [2, 3, 4, 0]) 1 1,
    -- 274: del x55
    .del 67,
    -- 275: x57 += einsum("ijab->jiab", x56)
    .add 65 (.ein [(93, [0, 1, 2, 3])] [1, 0, 2, 3]) 1 1,
    -- 276: del x56
    .del 93,
    -- 277: t2new -= einsum("ijab->ijab", x57)
    .add 70 (.ein [(65, [0, 1, 2, 3])] [0, 1, 2, 3]) (-1) 1,
    -- 278: t2new += einsum("ijab->ijba", x57)
    .add 70 (.ein [(65, [0, 1, 2, 3])] [0, 1, 3, 2]) 1 1,
    -- 279: del x57
    .del 65,
    -- 280: x70 += einsum("ab->ba", x54)
    .add 40 (.ein [(92, [0, 1])] [1, 0]) 1 1,
    -- 281: del x54
    .del 92,
    -- 282: x58 = np.zeros((nocc, nocc, nocc, nvir), dtype=types[float])
    .zeros 94 [0, 0, 0, 1],
    -- 283: x58 += einsum("ijab,kcab->ijkc", t2, v.ovvv)
    .add 94 (.ein [(6, [0, 1, 2, 3]), (12, [4, 5, 2, 3])] [0, 1, 4, 5]) 1 1,
    -- 284: x59 = np.zeros((nocc, nocc, nvir, nvir), dtype=types[float])
    .zeros 95 [0, 0, 1, 1],
    -- 285: x59 += einsum("ia,jkib->jkab", t1, x58)
    .add 95 (.ein [(4, [0, 1]), (94, [2, 3, 0, 4])] [2, 3, 1, 4]) 1 1,
    -- 286: del x58
    .del 94,
    -- 287: x62 = np.zeros((nocc, nocc, nvir, nvir), dtype=types[float])
    .zeros 96 [0, 0, 1, 1],
    -- 288: x62 += einsum("ijab->ijab", x59) * 0.5
    .add 96 (.ein [(95, [0, 1, 2, 3])] [0, 1, 2, 3]) 1 2,
    -- 289: del x59
    .del 95,
    -- 290: x60 = np.zeros((nvir, nvir), dtype=types[float])
    .zeros 97 [1, 1],
    -- 291: x60 -= einsum("ijab,ijbc->ac", t2, v.oovv)
    .add 97 (.ein [(6, [0, 1, 2, 3]), (5, [0, 1, 3, 4])] [2, 4]) (-1) 1,
    -- 292: x61 = np.zeros((nocc, nocc, nvir, nvir), dtype=types[float])
    .zeros 98 [0, 0, 1, 1],
    -- 293: x61 += einsum("ab,ijcb->ijca", x60, t2)
    .add 98 (.ein [(97, [0, 1]), (6, [2, 3, 4, 1])] [2, 3, 4, 0]) 1 1,
    -- 294: x62 += einsum("ijab->ijab", x61) * 0.5
    .add 96 (.ein [(98, [0, 1, 2, 3])] [0, 1, 2, 3]) 1 2,
    -- 295: del x61
    .del 98,
    -- 296: t2new += einsum("ijab->ijab", x62) * -1
    .add 70 (.ein [(96, [0, 1, 2, 3])] [0, 1, 2, 3]) (-1) 1,
    -- 297: t2new += einsum("ijab->ijba", x62)
    .add 70 (.ein [(96, [0, 1, 2, 3])] [0, 1, 3, 2]) 1 1,
    -- 298: del x62
    .del 96,
    -- 299: x70 += einsum("ab->ab", x60) * 0.5
    .add 40 (.ein [(97, [0, 1])] [0, 1]) 1 2,
    -- 300: del x60
    .del 97,
    -- 301: x63 = np.zeros((nocc, nocc, nocc, nocc), dtype=types[float])
    .zeros 99 [0, 0, 0, 0],
    -- 302: x63 += einsum("ijab,klab->ijkl", t2, v.oovv)
    .add 99 (.ein [(6, [0, 1, 2, 3]), (5, [4, 5, 2, 3])] [0, 1, 4, 5]) 1 1,
    -- 303: x65 += einsum("ijkl->lkji", x63) * 0.49999999999999967
    .add 32 (.ein [(99, [0, 1, 2, 3])] [3, 2, 1, 0]) 1 2,
    -- 304: x66 += einsum("ijkl->lkji", x63) * 0.5000000000000003
    .add 33 (.ein [(99, [0, 1, 2, 3])] [3, 2, 1, 0]) 1 2,
    -- 305: del x63
    .del 99,
    -- 306: x65 += einsum("ijkl->jilk", v.oooo) * 0.9999999999999993
    .add 32 (.ein [(18, [0, 1, 2, 3])] [1, 0, 3, 2]) 1 1,
    -- 307: t2new += einsum("ijab,ijkl->lkba", t2, x65) * 0.5000000000000003
    .add 70 (.ein [(6, [0, 1, 2, 3]), (32, [0, 1, 4, 5])] [5, 4, 3, 2]) 1 2,
    -- 308: del x65
    .del 32,
    -- 309: x66 += einsum("ijkl->jilk", v.oooo)
    .add 33 (.ein [(18, [0, 1, 2, 3])] [1, 0, 3, 2]) 1 1,
    -- 310: x67 = np.zeros((nocc, nocc, nocc, nvir), dtype=types[float])
    .zeros 100 [0, 0, 0, 1],
    -- 311: x67 += einsum("ia,ijkl->lkja", t1, x66)
    .add 100 (.ein [(4, [0, 1]), (33, [0, 2, 3, 4])] [4, 3, 2, 1]) 1 1,
    -- 312: del x66
    .del 33,
    -- 313: x67 += einsum("iajk->kjia", v.ovoo)
    .add 100 (.ein [(19, [0, 1, 2, 3])] [3, 2, 0, 1]) 1 1,
    -- 314: t2new += einsum("ia,jkib->jkab", t1, x67)
    .add 70 (.ein [(4, [0, 1]), (100, [2, 3, 0, 4])] [2, 3, 1, 4]) 1 1,
    -- 315: del x67
    .del 100,
    -- 316: x68 = np.zeros((nbos, nocc, nvir), dtype=types[float])
    .zeros 101 [2, 0, 1],
    -- 317: x68 += einsum("wia,ijab->wjb", u11, v.oovv)
    .add 101 (.ein [(10, [0, 1, 2]), (5, [1, 3, 2, 4])] [0, 3, 4]) 1 1,
    -- 318: x69 = np.zeros((nbos, nocc, nvir), dtype=types[float])
    .zeros 102 [2, 0, 1],
    -- 319: x69 += einsum("wia->wia", x68)
    .add 102 (.ein [(101, [0, 1, 2])] [0, 1, 2]) 1 1,
    -- 320: del x68
    .del 101,
    -- 321: x69 += einsum("wia->wia", gc.bov)
    .add 102 (.ein [(24, [0, 1, 2])] [0, 1, 2]) 1 1,
    -- 322: x72 = np.zeros((nbos, nocc, nocc), dtype=types[float])
    .zeros 103 [2, 0, 0],
    -- 323: x72 += einsum("ia,wja->wji", t1, x69)
    .add 103 (.ein [(4, [0, 1]), (102, [2, 3, 1])] [2, 3, 0]) 1 1,
    -- 324: u11new += einsum("wia,ijab->wjb", x69, t2)
    .add 61 (.ein [(102, [0, 1, 2]), (6, [1, 3, 2, 4])] [0, 3, 4]) 1 1,
    -- 325: del x69
    .del 102,
    -- 326: x70 += einsum("ab->ab", f.vv) * -1
    .add 40 (.ein [(13, [0, 1])] [0, 1]) (-1) 1,
    -- 327: u11new += einsum("ab,wib->wia", x70, u11) * -1
    .add 61 (.ein [(40, [0, 1]), (10, [2, 3, 1])] [2, 3, 0]) (-1) 1,
    -- 328: del x70
    .del 40,
    -- 329: x71 += einsum("ia->ia", f.ov)
    .add 38 (.ein [(9, [0, 1])] [0, 1]) 1 1,
    -- 330: x72 += einsum("ia,wja->wij", x71, u11)
    .add 103 (.ein [(38, [0, 1]), (10, [2, 3, 1])] [2, 0, 3]) 1 1,
    -- 331: del x71
    .del 38,
    -- 332: x72 += einsum("wij->wij", gc.boo)
    .add 103 (.ein [(23, [0, 1, 2])] [0, 1, 2]) 1 1,
    -- 333: x72 -= einsum("wia,ijka->wjk", u11, v.ooov)
    .add 103 (.ein [(10, [0, 1, 2]), (7, [1, 3, 4, 2])] [0, 3, 4]) (-1) 1,
    -- 334: u11new -= einsum("ia,wij->wja", t1, x72)
    .add 61 (.ein [(4, [0, 1]), (103, [2, 0, 3])] [2, 3, 1]) (-1) 1,
    -- 335: del x72
    .del 103,
    -- 336: x73 = np.zeros((nbos, nvir, nvir), dtype=types[float])
    .zeros 104 [2, 1, 1],
    -- 337: x73 += einsum("wab->wab", gc.bvv)
    .add 104 (.ein [(26, [0, 1, 2])] [0, 1, 2]) 1 1,
    -- 338: x73 += einsum("wia,ibac->wbc", u11, v.ovvv)
    .add 104 (.ein [(10, [0, 1, 2]), (12, [1, 3, 2, 4])] [0, 3, 4]) 1 1,
    -- 339: u11new += einsum("ia,wba->wib", t1, x73)
    .add 61 (.ein [(4, [0, 1]), (104, [2, 3, 1])] [2, 0, 3]) 1 1,
    -- 340: del x73
    .del 104,
    -- 341: x74 = np.zeros((nbos, nbos), dtype=types[float])
    .zeros 105 [2, 2],
    -- 342: x74 += einsum("wx->wx", w)
    .add 105 (.ein [(20, [0, 1])] [0, 1]) 1 1,
    -- 343: x74 += einsum("wia,xia->xw", g.bov, u11)
    .add 105 (.ein [(2, [0, 1, 2]), (10, [3, 1, 2])] [3, 0]) 1 1,
    -- 344: u11new += einsum("wx,xia->wia", x74, u11)
    .add 61 (.ein [(105, [0, 1]), (10, [1, 2, 3])] [0, 2, 3]) 1 1,
    -- 345: del x74
    .del 105,
    -- 346: t1new += einsum("wab,wib->ia", g.bvv, u11)
    .add 34 (.ein [(3, [0, 1, 2]), (10, [0, 3, 2])] [3, 1]) 1 1,
    -- 347: t1new += einsum("ai->ia", f.vo)
    .add 34 (.ein [(21, [0, 1])] [1, 0]) 1 1,
    -- 348: t1new += einsum("w,wai->ia", s1, g.bvo)
    .add 34 (.ein [(8, [0]), (1, [0, 1, 2])] [2, 1]) 1 1,
    -- 349: t1new += einsum("ijab,jcab->ic", t2, v.ovvv) * -0.5
    .add 34 (.ein [(6, [0, 1, 2, 3]), (12, [1, 4, 2, 3])] [0, 4]) (-1) 2,
    -- 350: t1new -= einsum("ia,ibja->jb", t1, v.ovov)
    .add 34 (.ein [(4, [0, 1]), (16, [0, 2, 3, 1])] [3, 2]) (-1) 1,
    -- 351: t2new -= einsum("ia,ibjk->kjba", t1, v.ovoo)
    .add 70 (.ein [(4, [0, 1]), (19, [0, 2, 3, 4])] [4, 3, 2, 1]) (-1) 1,
    -- 352: t2new += einsum("abij->jiba", v.vvoo)
    .add 70 (.ein [(22, [0, 1, 2, 3])] [3, 2, 1, 0]) 1 1,
    -- 353: t2new += einsum("ijab,cdab->jidc", t2, v.vvvv) * 0.5
    .add 70 (.ein [(6, [0, 1, 2, 3]), (15, [4, 5, 2, 3])] [1, 0, 5, 4]) 1 2,
    -- 354: s1new += einsum("w,xw->x", s1, w)
    .add 45 (.ein [(8, [0]), (20, [1, 0])] [1]) 1 1,
    -- 355: s1new += einsum("ia,wia->w", t1, gc.bov)
    .add 45 (.ein [(4, [0, 1]), (24, [2, 0, 1])] [2]) 1 1,
    -- 356: s1new += einsum("w->w", G)
    .add 45 (.ein [(14, [0])] [0]) 1 1,
    -- 357: u11new += einsum("wai->wia", gc.bvo)
    .add 61 (.ein [(25, [0, 1, 2])] [0, 2, 1]) 1 1,
    -- 358: u11new -= einsum("wia,ibja->wjb", u11, v.ovov)
    .add 61 (.ein [(10, [0, 1, 2]), (16, [1, 3, 4, 2])] [0, 4, 3]) (-1) 1
  ]
  ret := [(chars! "t1new", 34), (chars! "t2new", 70), (chars! "s1new", 45), (chars! "u11new", 61)]

/-- codegen/GCCSD_S_1_1.py:362-923 `update_lams`. -/
def update_lams : GenFun where
  args := [chars! "g.boo", chars! "g.bvo", chars! "g.bov", chars! "g.bvv", chars! "l2", chars! "t2", chars! "v.ooov", chars! "t1", chars! "v.oovv", chars! "v.ovvv", chars! "u11", chars! "s1", chars! "l1", chars! "f.ov", chars! "ls1", chars! "v.oooo", chars! "v.ovov", chars! "v.ovoo", chars! "v.vvov", chars! "v.vvvv", chars! "f.oo", chars! "lu11", chars! "f.vv", chars! "G", chars! "f.vo", chars! "w"]
  body := [
    -- 364: gc = Namespace(
    .set 26 (.tr 0 [0, 2, 1]) 1 1,
    .set 27 (.tr 1 [0, 2, 1]) 1 1,
    .set 28 (.tr 2 [0, 2, 1]) 1 1,
    .set 29 (.tr 3 [0, 2, 1]) 1 1,
    -- 372: x0 = np.zeros((nocc, nocc, nocc, nocc), dtype=types[float])
    .zeros 30 [0, 0, 0, 0],
    -- 373: x0 += einsum("abij,klab->ijkl", l2, t2)
    .add 30 (.ein [(4, [0, 1, 2, 3]), (5, [4, 5, 0, 1])] [2, 3, 4, 5]) 1 1,
    -- 374: x18 = np.zeros((nocc, nocc, nocc, nocc), dtype=types[float])
    .zeros 31 [0, 0, 0, 0],
    -- 375: x18 += einsum("ijkl->jilk", x0) * -1
    .add 31 (.ein [(30, [0, 1, 2, 3])] [1, 0, 3, 2]) (-1) 1,
    -- 376: x112 = np.zeros((nocc, nocc, nocc, nocc), dtype=types[float])
    .zeros 32 [0, 0, 0, 0],
    -- 377: x112 += einsum("ijkl->jilk", x0) * -0.5
    .add 32 (.ein [(30, [0, 1, 2, 3])] [1, 0, 3, 2]) (-1) 2,
    -- 378: l1new = np.zeros((nvir, nocc), dtype=types[float])
    .zeros 33 [1, 0],
    -- 379: l1new += einsum("ijka,lkij->al", v.ooov, x0) * -0.25
    .add 33 (.ein [(6, [0, 1, 2, 3]), (30, [4, 2, 0, 1])] [3, 4]) (-1) 4,
    -- 380: del x0
    .del 30,
    -- 381: x1 = np.zeros((nocc, nocc, nocc, nvir), dtype=types[float])
    .zeros 34 [0, 0, 0, 1],
    -- 382: x1 += einsum("ia,bajk->jkib", t1, l2)
    .add 34 (.ein [(7, [0, 1]), (4, [2, 1, 3, 4])] [3, 4, 0, 2]) 1 1,
    -- 383: x2 = np.zeros((nocc, nocc, nocc, nocc), dtype=types[float])
    .zeros 35 [0, 0, 0, 0],
    -- 384: x2 += einsum("ia,jkla->jkil", t1, x1)
    .add 35 (.ein [(7, [0, 1]), (34, [2, 3, 4, 1])] [2, 3, 0, 4]) 1 1,
    -- 385: x18 += einsum("ijkl->ijlk", x2) * 2.0000000000000013
    .add 31 (.ein [(35, [0, 1, 2, 3])] [0, 1, 3, 2]) 2 1,
    -- 386: x19 = np.zeros((nocc, nocc, nocc, nvir), dtype=types[float])
    .zeros 36 [0, 0, 0, 1],
    -- 387: x19 += einsum("ia,ijkl->jlka", t1, x18) * -0.5
    .add 36 (.ein [(7, [0, 1]), (31, [0, 2, 3, 4])] [2, 4, 3, 1]) (-1) 2,
    -- 388: del x18
    .del 31,
    -- 389: x112 += einsum("ijkl->ijlk", x2)
    .add 32 (.ein [(35, [0, 1, 2, 3])] [0, 1, 3, 2]) 1 1,
    -- 390: l2new = np.zeros((nvir, nvir, nocc, nocc), dtype=types[float])
    .zeros 37 [1, 1, 0, 0],
    -- 391: l2new += einsum("ijab,klij->balk", v.oovv, x112) * -0.5
    .add 37 (.ein [(8, [0, 1, 2, 3]), (32, [4, 5, 0, 1])] [3, 2, 5, 4]) (-1) 2,
    -- 392: del x112
    .del 32,
    -- 393: l1new += einsum("ijka,lkji->al", v.ooov, x2) * 0.5
    .add 33 (.ein [(6, [0, 1, 2, 3]), (35, [4, 2, 1, 0])] [3, 4]) 1 2,
    -- 394: del x2
    .del 35,
    -- 395: x19 += einsum("ijab,kjlb->klia", t2, x1) * 2
    .add 36 (.ein [(5, [0, 1, 2, 3]), (34, [4, 1, 5, 3])] [4, 5, 0, 2]) 2 1,
    -- 396: x50 = np.zeros((nocc, nvir), dtype=types[float])
    .zeros 38 [0, 1],
    -- 397: x50 += einsum("ijab,ijka->kb", t2, x1)
    .add 38 (.ein [(5, [0, 1, 2, 3]), (34, [0, 1, 4, 2])] [4, 3]) 1 1,
    -- 398: x54 = np.zeros((nocc, nvir), dtype=types[float])
    .zeros 39 [0, 1],
    -- 399: x54 += einsum("ia->ia", x50) * 0.5
    .add 39 (.ein [(38, [0, 1])] [0, 1]) 1 2,
    -- 400: del x50
    .del 38,
    -- 401: l2new += einsum("iabc,jkia->cbkj", v.ovvv, x1)
    .add 37 (.ein [(9, [0, 1, 2, 3]), (34, [4, 5, 0, 1])] [3, 2, 5, 4]) 1 1,
    -- 402: x3 = np.zeros((nbos, nocc, nvir), dtype=types[float])
    .zeros 40 [2, 0, 1],
    -- 403: x3 -= einsum("wia,abji->wjb", u11, l2)
    .add 40 (.ein [(10, [0, 1, 2]), (4, [2, 3, 4, 1])] [0, 4, 3]) (-1) 1,
    -- 404: x65 = np.zeros((nbos, nocc, nocc), dtype=types[float])
    .zeros 41 [2, 0, 0],
    -- 405: x65 += einsum("ia,wja->wji", t1, x3)
    .add 41 (.ein [(7, [0, 1]), (40, [2, 3, 1])] [2, 3, 0]) 1 1,
    -- 406: x73 = np.zeros((nocc, nocc, nvir, nvir), dtype=types[float])
    .zeros 42 [0, 0, 1, 1],
    -- 407: x73 += einsum("wia,wjb->ijab", g.bov, x3)
    .add 42 (.ein [(2, [0, 1, 2]), (40, [0, 3, 4])] [1, 3, 2, 4]) 1 1,
    -- 408: x81 = np.zeros((nocc, nocc, nvir, nvir), dtype=types[float])
    .zeros 43 [0, 0, 1, 1],
    -- 409: x81 += einsum("ijab->ijab", x73)
    .add 43 (.ein [(42, [0, 1, 2, 3])] [0, 1, 2, 3]) 1 1,
    -- 410: del x73
    .del 42,
    -- 411: l1new += einsum("wab,wia->bi", g.bvv, x3)
    .add 33 (.ein [(3, [0, 1, 2]), (40, [0, 3, 1])] [2, 3]) 1 1,
    -- 412: x4 = np.zeros((nocc, nocc, nvir, nvir), dtype=types[float])
    .zeros 44 [0, 0, 1, 1],
    -- 413: x4 -= einsum("abij,kicb->jkac", l2, t2)
    .add 44 (.ein [(4, [0, 1, 2, 3]), (5, [4, 2, 5, 1])] [3, 4, 0, 5]) (-1) 1,
    -- 414: l1new -= einsum("iabc,jiac->bj", v.ovvv, x4)
    .add 33 (.ein [(9, [0, 1, 2, 3]), (44, [4, 0, 1, 3])] [2, 4]) (-1) 1,
    -- 415: del x4
    .del 44,
    -- 416: x5 = np.zeros((nocc, nvir), dtype=types[float])
    .zeros 45 [0, 1],
    -- 417: x5 += einsum("w,wia->ia", s1, g.bov)
    .add 45 (.ein [(11, [0]), (2, [0, 1, 2])] [1, 2]) 1 1,
    -- 418: x11 = np.zeros((nocc, nvir), dtype=types[float])
    .zeros 46 [0, 1],
    -- 419: x11 += einsum("ia->ia", x5)
    .add 46 (.ein [(45, [0, 1])] [0, 1]) 1 1,
    -- 420: x59 = np.zeros((nocc, nvir), dtype=types[float])
    .zeros 47 [0, 1],
    -- 421: x59 += einsum("ia->ia", x5)
    .add 47 (.ein [(45, [0, 1])] [0, 1]) 1 1,
    -- 422: x80 = np.zeros((nocc, nvir), dtype=types[float])
    .zeros 48 [0, 1],
    -- 423: x80 += einsum("ia->ia", x5)
    .add 48 (.ein [(45, [0, 1])] [0, 1]) 1 1,
    -- 424: x6 = np.zeros((nocc, nocc), dtype=types[float])
    .zeros 49 [0, 0],
    -- 425: x6 += einsum("ai,ja->ij", l1, t1)
    .add 49 (.ein [(12, [0, 1]), (7, [2, 0])] [1, 2]) 1 1,
    -- 426: x52 = np.zeros((nocc, nocc), dtype=types[float])
    .zeros 50 [0, 0],
    -- 427: x52 += einsum("ij->ij", x6) * 2
    .add 50 (.ein [(49, [0, 1])] [0, 1]) 2 1,
    -- 428: x68 = np.zeros((nocc, nocc), dtype=types[float])
    .zeros 51 [0, 0],
    -- 429: x68 += einsum("ij->ij", x6)
    .add 51 (.ein [(49, [0, 1])] [0, 1]) 1 1,
    -- 430: x120 = np.zeros((nocc, nocc), dtype=types[float])
    .zeros 52 [0, 0],
    -- 431: x120 += einsum("ij->ij", x6)
    .add 52 (.ein [(49, [0, 1])] [0, 1]) 1 1,
    -- 432: l1new -= einsum("ia,ji->aj", x5, x6)
    .add 33 (.ein [(45, [0, 1]), (49, [2, 0])] [1, 2]) (-1) 1,
    -- 433: del x5
    .del 45,
    -- 434: ls1new = np.zeros((nbos), dtype=types[float])
    .zeros 53 [2],
    -- 435: ls1new -= einsum("ij,wji->w", x6, g.boo)
    .add 53 (.ein [(49, [0, 1]), (0, [2, 1, 0])] [2]) (-1) 1,
    -- 436: del x6
    .del 49,
    -- 437: x7 = np.zeros((nocc, nocc), dtype=types[float])
    .zeros 54 [0, 0],
    -- 438: x7 += einsum("abij,ikab->jk", l2, t2)
    .add 54 (.ein [(4, [0, 1, 2, 3]), (5, [2, 4, 0, 1])] [3, 4]) 1 1,
    -- 439: x19 += einsum("ia,jk->jkia", t1, x7) * -1
    .add 36 (.ein [(7, [0, 1]), (54, [2, 3])] [2, 3, 0, 1]) (-1) 1,
    -- 440: x52 += einsum("ij->ij", x7)
    .add 50 (.ein [(54, [0, 1])] [0, 1]) 1 1,
    -- 441: x64 = np.zeros((nocc, nocc), dtype=types[float])
    .zeros 55 [0, 0],
    -- 442: x64 += einsum("ij->ij", x7) * 0.5
    .add 55 (.ein [(54, [0, 1])] [0, 1]) 1 2,
    -- 443: x83 = np.zeros((nocc, nocc, nvir, nvir), dtype=types[float])
    .zeros 56 [0, 0, 1, 1],
    -- 444: x83 -= einsum("ij,kjab->ikab", x7, v.oovv)
    .add 56 (.ein [(54, [0, 1]), (8, [2, 1, 3, 4])] [0, 2, 3, 4]) (-1) 1,
    -- 445: x84 = np.zeros((nocc, nocc, nvir, nvir), dtype=types[float])
    .zeros 57 [0, 0, 1, 1],
    -- 446: x84 += einsum("ijab->ijba", x83) * -0.5
    .add 57 (.ein [(56, [0, 1, 2, 3])] [0, 1, 3, 2]) (-1) 2,
    -- 447: del x83
    .del 56,
    -- 448: x120 += einsum("ij->ij", x7) * 0.5
    .add 52 (.ein [(54, [0, 1])] [0, 1]) 1 2,
    -- 449: l1new += einsum("ia,ji->aj", f.ov, x7) * -0.5
    .add 33 (.ein [(13, [0, 1]), (54, [2, 0])] [1, 2]) (-1) 2,
    -- 450: del x7
    .del 54,
    -- 451: x8 = np.zeros((nocc, nocc, nocc, nvir), dtype=types[float])
    .zeros 58 [0, 0, 0, 1],
    -- 452: x8 += einsum("ia,jkba->ijkb", t1, v.oovv)
    .add 58 (.ein [(7, [0, 1]), (8, [2, 3, 4, 1])] [0, 2, 3, 4]) 1 1,
    -- 453: x9 = np.zeros((nocc, nocc, nocc, nvir), dtype=types[float])
    .zeros 59 [0, 0, 0, 1],
    -- 454: x9 += einsum("ijka->ikja", x8) * -1
    .add 59 (.ein [(58, [0, 1, 2, 3])] [0, 2, 1, 3]) (-1) 1,
    -- 455: x13 = np.zeros((nocc, nocc, nocc, nvir), dtype=types[float])
    .zeros 60 [0, 0, 0, 1],
    -- 456: x13 += einsum("ijka->kjia", x8) * 0.5000000000000003
    .add 60 (.ein [(58, [0, 1, 2, 3])] [2, 1, 0, 3]) 1 2,
    -- 457: x78 = np.zeros((nocc, nocc, nocc, nvir), dtype=types[float])
    .zeros 61 [0, 0, 0, 1],
    -- 458: x78 -= einsum("ijka->ikja", x8)
    .add 61 (.ein [(58, [0, 1, 2, 3])] [0, 2, 1, 3]) (-1) 1,
    -- 459: x98 = np.zeros((nocc, nocc, nvir, nvir), dtype=types[float])
    .zeros 62 [0, 0, 1, 1],
    -- 460: x98 -= einsum("ai,ijkb->kjab", l1, x8)
    .add 62 (.ein [(12, [0, 1]), (58, [1, 2, 3, 4])] [3, 2, 0, 4]) (-1) 1,
    -- 461: x106 = np.zeros((nocc, nocc, nvir, nvir), dtype=types[float])
    .zeros 63 [0, 0, 1, 1],
    -- 462: x106 += einsum("ijab->ijab", x98)
    .add 63 (.ein [(62, [0, 1, 2, 3])] [0, 1, 2, 3]) 1 1,
    -- 463: del x98
    .del 62,
    -- 464: x110 = np.zeros((nocc, nocc, nocc, nvir), dtype=types[float])
    .zeros 64 [0, 0, 0, 1],
    -- 465: x110 += einsum("ijka->kjia", x8) * 0.5
    .add 64 (.ein [(58, [0, 1, 2, 3])] [2, 1, 0, 3]) 1 2,
    -- 466: del x8
    .del 58,
    -- 467: x9 += einsum("ijka->kjia", v.ooov)
    .add 59 (.ein [(6, [0, 1, 2, 3])] [2, 1, 0, 3]) 1 1,
    -- 468: x17 = np.zeros((nocc, nocc, nocc, nvir), dtype=types[float])
    .zeros 65 [0, 0, 0, 1],
    -- 469: x17 += einsum("ijab,kila->lkjb", t2, x9) * 2
    .add 65 (.ein [(5, [0, 1, 2, 3]), (59, [4, 0, 5, 2])] [5, 4, 1, 3]) 2 1,
    -- 470: x26 = np.zeros((nocc, nvir), dtype=types[float])
    .zeros 66 [0, 1],
    -- 471: x26 += einsum("ijab,kija->kb", t2, x9) * 0.5
    .add 66 (.ein [(5, [0, 1, 2, 3]), (59, [4, 0, 1, 2])] [4, 3]) 1 2,
    -- 472: del x9
    .del 59,
    -- 473: x45 = np.zeros((nocc, nvir), dtype=types[float])
    .zeros 67 [0, 1],
    -- 474: x45 += einsum("ia->ia", x26)
    .add 67 (.ein [(66, [0, 1])] [0, 1]) 1 1,
    -- 475: del x26
    .del 66,
    -- 476: x10 = np.zeros((nocc, nvir), dtype=types[float])
    .zeros 68 [0, 1],
    -- 477: x10 += einsum("ia,jiba->jb", t1, v.oovv)
    .add 68 (.ein [(7, [0, 1]), (8, [2, 0, 3, 1])] [2, 3]) 1 1,
    -- 478: x11 += einsum("ia->ia", x10)
    .add 46 (.ein [(68, [0, 1])] [0, 1]) 1 1,
    -- 479: x59 += einsum("ia->ia", x10)
    .add 47 (.ein [(68, [0, 1])] [0, 1]) 1 1,
    -- 480: x69 = np.zeros((nocc, nvir), dtype=types[float])
    .zeros 69 [0, 1],
    -- 481: x69 += einsum("ia->ia", x10)
    .add 69 (.ein [(68, [0, 1])] [0, 1]) 1 1,
    -- 482: x81 += einsum("ai,jb->ijab", l1, x10)
    .add 43 (.ein [(12, [0, 1]), (68, [2, 3])] [1, 2, 0, 3]) 1 1,
    -- 483: x94 = np.zeros((nocc, nocc), dtype=types[float])
    .zeros 70 [0, 0],
    -- 484: x94 += einsum("ia,ja->ij", t1, x10)
    .add 70 (.ein [(7, [0, 1]), (68, [2, 1])] [0, 2]) 1 1,
    -- 485: x95 = np.zeros((nocc, nocc), dtype=types[float])
    .zeros 71 [0, 0],
    -- 486: x95 += einsum("ij->ji", x94)
    .add 71 (.ein [(70, [0, 1])] [1, 0]) 1 1,
    -- 487: del x94
    .del 70,
    -- 488: x101 = np.zeros((nocc, nocc, nvir, nvir), dtype=types[float])
    .zeros 72 [0, 0, 1, 1],
    -- 489: x101 -= einsum("ia,jkib->kjba", x10, x1)
    .add 72 (.ein [(68, [0, 1]), (34, [2, 3, 0, 4])] [3, 2, 4, 1]) (-1) 1,
    -- 490: x106 -= einsum("ijab->ijab", x101)
    .add 63 (.ein [(72, [0, 1, 2, 3])] [0, 1, 2, 3]) (-1) 1,
    -- 491: del x101
    .del 72,
    -- 492: x118 = np.zeros((nvir, nvir), dtype=types[float])
    .zeros 73 [1, 1],
    -- 493: x118 += einsum("ia,ib->ab", t1, x10)
    .add 73 (.ein [(7, [0, 1]), (68, [0, 2])] [1, 2]) 1 1,
    -- 494: del x10
    .del 68,
    -- 495: x11 += einsum("ia->ia", f.ov)
    .add 46 (.ein [(13, [0, 1])] [0, 1]) 1 1,
    -- 496: x17 += einsum("ia,jkab->ikjb", x11, t2) * -1
    .add 65 (.ein [(46, [0, 1]), (5, [2, 3, 1, 4])] [0, 3, 2, 4]) (-1) 1,
    -- 497: x27 = np.zeros((nocc, nvir), dtype=types[float])
    .zeros 74 [0, 1],
    -- 498: x27 += einsum("ia,ijab->jb", x11, t2)
    .add 74 (.ein [(46, [0, 1]), (5, [0, 2, 1, 3])] [2, 3]) 1 1,
    -- 499: x45 += einsum("ia->ia", x27) * -1
    .add 67 (.ein [(74, [0, 1])] [0, 1]) (-1) 1,
    -- 500: del x27
    .del 74,
    -- 501: x35 = np.zeros((nocc, nocc), dtype=types[float])
    .zeros 75 [0, 0],
    -- 502: x35 += einsum("ia,ja->ij", t1, x11)
    .add 75 (.ein [(7, [0, 1]), (46, [2, 1])] [0, 2]) 1 1,
    -- 503: x36 = np.zeros((nocc, nocc), dtype=types[float])
    .zeros 76 [0, 0],
    -- 504: x36 += einsum("ij->ji", x35)
    .add 76 (.ein [(75, [0, 1])] [1, 0]) 1 1,
    -- 505: del x35
    .del 75,
    -- 506: lu11new = np.zeros((nbos, nvir, nocc), dtype=types[float])
    .zeros 77 [2, 1, 0],
    -- 507: lu11new += einsum("w,ia->wai", ls1, x11) * 2
    .add 77 (.ein [(14, [0]), (46, [1, 2])] [0, 2, 1]) 2 1,
    -- 508: del x11
    .del 46,
    -- 509: x12 = np.zeros((nocc, nocc, nocc, nocc), dtype=types[float])
    .zeros 78 [0, 0, 0, 0],
    -- 510: x12 += einsum("ijab,klab->ijkl", t2, v.oovv)
    .add 78 (.ein [(5, [0, 1, 2, 3]), (8, [4, 5, 2, 3])] [0, 1, 4, 5]) 1 1,
    -- 511: x14 = np.zeros((nocc, nocc, nocc, nocc), dtype=types[float])
    .zeros 79 [0, 0, 0, 0],
    -- 512: x14 += einsum("ijkl->lkji", x12)
    .add 79 (.ein [(78, [0, 1, 2, 3])] [3, 2, 1, 0]) 1 1,
    -- 513: x111 = np.zeros((nocc, nocc, nocc, nocc), dtype=types[float])
    .zeros 80 [0, 0, 0, 0],
    -- 514: x111 += einsum("ijkl->lkji", x12)
    .add 80 (.ein [(78, [0, 1, 2, 3])] [3, 2, 1, 0]) 1 1,
    -- 515: del x12
    .del 78,
    -- 516: x13 += einsum("ijka->jika", v.ooov) * -1
    .add 60 (.ein [(6, [0, 1, 2, 3])] [1, 0, 2, 3]) (-1) 1,
    -- 517: x14 += einsum("ia,jkla->kjli", t1, x13) * -4
    .add 79 (.ein [(7, [0, 1]), (60, [2, 3, 4, 1])] [3, 2, 4, 0]) (-4) 1,
    -- 518: del x13
    .del 60,
    -- 519: x14 += einsum("ijkl->jilk", v.oooo) * 2
    .add 79 (.ein [(15, [0, 1, 2, 3])] [1, 0, 3, 2]) 2 1,
    -- 520: x17 += einsum("ia,ijkl->jlka", t1, x14) * -0.5
    .add 65 (.ein [(7, [0, 1]), (79, [0, 2, 3, 4])] [2, 4, 3, 1]) (-1) 2,
    -- 521: del x14
    .del 79,
    -- 522: x15 = np.zeros((nocc, nocc, nvir, nvir), dtype=types[float])
    .zeros 81 [0, 0, 1, 1],
    -- 523: x15 += einsum("ia,jbca->ijbc", t1, v.ovvv)
    .add 81 (.ein [(7, [0, 1]), (9, [2, 3, 4, 1])] [0, 2, 3, 4]) 1 1,
    -- 524: x16 = np.zeros((nocc, nocc, nvir, nvir), dtype=types[float])
    .zeros 82 [0, 0, 1, 1],
    -- 525: x16 += einsum("ijab->jiab", x15) * -0.5
    .add 82 (.ein [(81, [0, 1, 2, 3])] [1, 0, 2, 3]) (-1) 2,
    -- 526: x21 = np.zeros((nocc, nocc, nvir, nvir), dtype=types[float])
    .zeros 83 [0, 0, 1, 1],
    -- 527: x21 -= einsum("ijab->jiab", x15)
    .add 83 (.ein [(81, [0, 1, 2, 3])] [1, 0, 2, 3]) (-1) 1,
    -- 528: x76 = np.zeros((nocc, nocc, nvir, nvir), dtype=types[float])
    .zeros 84 [0, 0, 1, 1],
    -- 529: x76 += einsum("ijab->ijab", x15)
    .add 84 (.ein [(81, [0, 1, 2, 3])] [0, 1, 2, 3]) 1 1,
    -- 530: del x15
    .del 81,
    -- 531: x16 += einsum("iajb->ijab", v.ovov)
    .add 82 (.ein [(16, [0, 1, 2, 3])] [0, 2, 1, 3]) 1 1,
    -- 532: x17 += einsum("ia,jkba->jikb", t1, x16) * -2
    .add 65 (.ein [(7, [0, 1]), (82, [2, 3, 4, 1])] [2, 0, 3, 4]) (-2) 1,
    -- 533: del x16
    .del 82,
    -- 534: x17 += einsum("iajk->ikja", v.ovoo) * -1
    .add 65 (.ein [(17, [0, 1, 2, 3])] [0, 3, 2, 1]) (-1) 1,
    -- 535: x17 += einsum("ijab,kcab->kjic", t2, v.ovvv) * -0.5
    .add 65 (.ein [(5, [0, 1, 2, 3]), (9, [4, 5, 2, 3])] [4, 1, 0, 5]) (-1) 2,
    -- 536: l1new += einsum("abij,kija->bk", l2, x17) * 0.5
    .add 33 (.ein [(4, [0, 1, 2, 3]), (65, [4, 2, 3, 0])] [1, 4]) 1 2,
    -- 537: del x17
    .del 65,
    -- 538: x19 += einsum("ai,jkba->ikjb", l1, t2) * -1
    .add 36 (.ein [(12, [0, 1]), (5, [2, 3, 4, 0])] [1, 3, 2, 4]) (-1) 1,
    -- 539: l1new += einsum("ijab,kija->bk", v.oovv, x19) * -0.5
    .add 33 (.ein [(8, [0, 1, 2, 3]), (36, [4, 0, 1, 2])] [3, 4]) (-1) 2,
    -- 540: del x19
    .del 36,
    -- 541: x20 = np.zeros((nocc, nvir, nvir, nvir), dtype=types[float])
    .zeros 85 [0, 1, 1, 1],
    -- 542: x20 += einsum("abic->ibac", v.vvov) * -1
    .add 85 (.ein [(18, [0, 1, 2, 3])] [2, 1, 0, 3]) (-1) 1,
    -- 543: x20 += einsum("ia,bcda->icbd", t1, v.vvvv)
    .add 85 (.ein [(7, [0, 1]), (19, [2, 3, 4, 1])] [0, 3, 2, 4]) 1 1,
    -- 544: l1new += einsum("abij,iabc->cj", l2, x20) * 0.5
    .add 33 (.ein [(4, [0, 1, 2, 3]), (85, [2, 0, 1, 4])] [4, 3]) 1 2,
    -- 545: del x20
    .del 85,
    -- 546: x21 += einsum("iajb->ijab", v.ovov)
    .add 83 (.ein [(16, [0, 1, 2, 3])] [0, 2, 1, 3]) 1 1,
    -- 547: l1new += einsum("ijka,kiab->bj", x1, x21)
    .add 33 (.ein [(34, [0, 1, 2, 3]), (83, [2, 0, 3, 4])] [4, 1]) 1 1,
    -- 548: del x21
    .del 83,
    -- 549: x22 = np.zeros((nocc, nvir), dtype=types[float])
    .zeros 86 [0, 1],
    -- 550: x22 += einsum("w,wai->ia", s1, g.bvo)
    .add 86 (.ein [(11, [0]), (1, [0, 1, 2])] [2, 1]) 1 1,
    -- 551: x45 += einsum("ia->ia", x22) * -1
    .add 67 (.ein [(86, [0, 1])] [0, 1]) (-1) 1,
    -- 552: del x22
    .del 86,
    -- 553: x23 = np.zeros((nocc, nvir), dtype=types[float])
    .zeros 87 [0, 1],
    -- 554: x23 += einsum("wab,wib->ia", g.bvv, u11)
    .add 87 (.ein [(3, [0, 1, 2]), (10, [0, 3, 2])] [3, 1]) 1 1,
    -- 555: x45 += einsum("ia->ia", x23) * -1
    .add 67 (.ein [(87, [0, 1])] [0, 1]) (-1) 1,
    -- 556: del x23
    .del 87,
    -- 557: x24 = np.zeros((nocc, nvir), dtype=types[float])
    .zeros 88 [0, 1],
    -- 558: x24 += einsum("ia,ibja->jb", t1, v.ovov)
    .add 88 (.ein [(7, [0, 1]), (16, [0, 2, 3, 1])] [3, 2]) 1 1,
    -- 559: x45 += einsum("ia->ia", x24)
    .add 67 (.ein [(88, [0, 1])] [0, 1]) 1 1,
    -- 560: del x24
    .del 88,
    -- 561: x25 = np.zeros((nocc, nvir), dtype=types[float])
    .zeros 89 [0, 1],
    -- 562: x25 -= einsum("ijab,icab->jc", t2, v.ovvv)
    .add 89 (.ein [(5, [0, 1, 2, 3]), (9, [0, 4, 2, 3])] [1, 4]) (-1) 1,
    -- 563: x45 += einsum("ia->ia", x25) * 0.5
    .add 67 (.ein [(89, [0, 1])] [0, 1]) 1 2,
    -- 564: del x25
    .del 89,
    -- 565: x28 = np.zeros((nbos, nocc, nocc), dtype=types[float])
    .zeros 90 [2, 0, 0],
    -- 566: x28 += einsum("ia,wja->wji", t1, g.bov)
    .add 90 (.ein [(7, [0, 1]), (2, [2, 3, 1])] [2, 3, 0]) 1 1,
    -- 567: x29 = np.zeros((nbos, nocc, nocc), dtype=types[float])
    .zeros 91 [2, 0, 0],
    -- 568: x29 += einsum("wij->wij", x28)
    .add 91 (.ein [(90, [0, 1, 2])] [0, 1, 2]) 1 1,
    -- 569: x66 = np.zeros((nbos, nocc, nocc), dtype=types[float])
    .zeros 92 [2, 0, 0],
    -- 570: x66 += einsum("wij->wij", x28)
    .add 92 (.ein [(90, [0, 1, 2])] [0, 1, 2]) 1 1,
    -- 571: del x28
    .del 90,
    -- 572: x29 += einsum("wij->wij", g.boo)
    .add 91 (.ein [(0, [0, 1, 2])] [0, 1, 2]) 1 1,
    -- 573: x30 = np.zeros((nocc, nvir), dtype=types[float])
    .zeros 93 [0, 1],
    -- 574: x30 += einsum("wia,wij->ja", u11, x29)
    .add 93 (.ein [(10, [0, 1, 2]), (91, [0, 1, 3])] [3, 2]) 1 1,
    -- 575: del x29
    .del 91,
    -- 576: x45 += einsum("ia->ia", x30)
    .add 67 (.ein [(93, [0, 1])] [0, 1]) 1 1,
    -- 577: del x30
    .del 93,
    -- 578: x31 = np.zeros((nocc, nocc), dtype=types[float])
    .zeros 94 [0, 0],
    -- 579: x31 += einsum("w,wij->ij", s1, g.boo)
    .add 94 (.ein [(11, [0]), (0, [0, 1, 2])] [1, 2]) 1 1,
    -- 580: x36 += einsum("ij->ij", x31)
    .add 76 (.ein [(94, [0, 1])] [0, 1]) 1 1,
    -- 581: x91 = np.zeros((nocc, nocc), dtype=types[float])
    .zeros 95 [0, 0],
    -- 582: x91 += einsum("ij->ij", x31)
    .add 95 (.ein [(94, [0, 1])] [0, 1]) 1 1,
    -- 583: del x31
    .del 94,
    -- 584: x32 = np.zeros((nocc, nocc), dtype=types[float])
    .zeros 96 [0, 0],
    -- 585: x32 += einsum("wia,wja->ij", g.bov, u11)
    .add 96 (.ein [(2, [0, 1, 2]), (10, [0, 3, 2])] [1, 3]) 1 1,
    -- 586: x36 += einsum("ij->ij", x32)
    .add 76 (.ein [(96, [0, 1])] [0, 1]) 1 1,
    -- 587: x91 += einsum("ij->ij", x32)
    .add 95 (.ein [(96, [0, 1])] [0, 1]) 1 1,
    -- 588: del x32
    .del 96,
    -- 589: x33 = np.zeros((nocc, nocc), dtype=types[float])
    .zeros 97 [0, 0],
    -- 590: x33 -= einsum("ia,ijka->jk", t1, v.ooov)
    .add 97 (.ein [(7, [0, 1]), (6, [0, 2, 3, 1])] [2, 3]) (-1) 1,
    -- 591: x36 += einsum("ij->ij", x33)
    .add 76 (.ein [(97, [0, 1])] [0, 1]) 1 1,
    -- 592: x95 += einsum("ij->ij", x33)
    .add 71 (.ein [(97, [0, 1])] [0, 1]) 1 1,
    -- 593: del x33
    .del 97,
    -- 594: x96 = np.zeros((nocc, nocc, nvir, nvir), dtype=types[float])
    .zeros 98 [0, 0, 1, 1],
    -- 595: x96 += einsum("ij,abjk->kiab", x95, l2)
    .add 98 (.ein [(71, [0, 1]), (4, [2, 3, 1, 4])] [4, 0, 2, 3]) 1 1,
    -- 596: del x95
    .del 71,
    -- 597: x97 = np.zeros((nocc, nocc, nvir, nvir), dtype=types[float])
    .zeros 99 [0, 0, 1, 1],
    -- 598: x97 -= einsum("ijab->ijba", x96)
    .add 99 (.ein [(98, [0, 1, 2, 3])] [0, 1, 3, 2]) (-1) 1,
    -- 599: del x96
    .del 98,
    -- 600: x34 = np.zeros((nocc, nocc), dtype=types[float])
    .zeros 100 [0, 0],
    -- 601: x34 += einsum("ijab,ikab->jk", t2, v.oovv)
    .add 100 (.ein [(5, [0, 1, 2, 3]), (8, [0, 4, 2, 3])] [1, 4]) 1 1,
    -- 602: x36 += einsum("ij->ji", x34) * 0.5
    .add 76 (.ein [(100, [0, 1])] [1, 0]) 1 2,
    -- 603: x82 = np.zeros((nocc, nocc, nvir, nvir), dtype=types[float])
    .zeros 101 [0, 0, 1, 1],
    -- 604: x82 += einsum("ij,abki->kjab", x34, l2)
    .add 101 (.ein [(100, [0, 1]), (4, [2, 3, 4, 0])] [4, 1, 2, 3]) 1 1,
    -- 605: del x34
    .del 100,
    -- 606: x84 += einsum("ijab->ijba", x82) * -0.5
    .add 57 (.ein [(101, [0, 1, 2, 3])] [0, 1, 3, 2]) (-1) 2,
    -- 607: del x82
    .del 101,
    -- 608: l2new += einsum("ijab->abij", x84) * -1
    .add 37 (.ein [(57, [0, 1, 2, 3])] [2, 3, 0, 1]) (-1) 1,
    -- 609: l2new += einsum("ijab->abji", x84)
    .add 37 (.ein [(57, [0, 1, 2, 3])] [2, 3, 1, 0]) 1 1,
    -- 610: del x84
    .del 57,
    -- 611: x36 += einsum("ij->ij", f.oo)
    .add 76 (.ein [(20, [0, 1])] [0, 1]) 1 1,
    -- 612: x37 = np.zeros((nocc, nvir), dtype=types[float])
    .zeros 102 [0, 1],
    -- 613: x37 += einsum("ia,ij->ja", t1, x36)
    .add 102 (.ein [(7, [0, 1]), (76, [0, 2])] [2, 1]) 1 1,
    -- 614: x45 += einsum("ia->ia", x37)
    .add 67 (.ein [(102, [0, 1])] [0, 1]) 1 1,
    -- 615: del x37
    .del 102,
    -- 616: l1new += einsum("ai,ji->aj", l1, x36) * -1
    .add 33 (.ein [(12, [0, 1]), (76, [2, 1])] [0, 2]) (-1) 1,
    -- 617: lu11new += einsum("ij,waj->wai", x36, lu11) * -1
    .add 77 (.ein [(76, [0, 1]), (21, [2, 3, 1])] [2, 3, 0]) (-1) 1,
    -- 618: del x36
    .del 76,
    -- 619: x38 = np.zeros((nvir, nvir), dtype=types[float])
    .zeros 103 [1, 1],
    -- 620: x38 += einsum("w,wab->ab", s1, g.bvv)
    .add 103 (.ein [(11, [0]), (3, [0, 1, 2])] [1, 2]) 1 1,
    -- 621: x40 = np.zeros((nvir, nvir), dtype=types[float])
    .zeros 104 [1, 1],
    -- 622: x40 += einsum("ab->ab", x38)
    .add 104 (.ein [(103, [0, 1])] [0, 1]) 1 1,
    -- 623: x67 = np.zeros((nvir, nvir), dtype=types[float])
    .zeros 105 [1, 1],
    -- 624: x67 += einsum("ab->ab", x38)
    .add 105 (.ein [(103, [0, 1])] [0, 1]) 1 1,
    -- 625: x103 = np.zeros((nvir, nvir), dtype=types[float])
    .zeros 106 [1, 1],
    -- 626: x103 += einsum("ab->ab", x38)
    .add 106 (.ein [(103, [0, 1])] [0, 1]) 1 1,
    -- 627: x118 += einsum("ab->ab", x38) * -1
    .add 73 (.ein [(103, [0, 1])] [0, 1]) (-1) 1,
    -- 628: del x38
    .del 103,
    -- 629: x39 = np.zeros((nvir, nvir), dtype=types[float])
    .zeros 107 [1, 1],
    -- 630: x39 -= einsum("ia,ibac->bc", t1, v.ovvv)
    .add 107 (.ein [(7, [0, 1]), (9, [0, 2, 1, 3])] [2, 3]) (-1) 1,
    -- 631: x40 += einsum("ab->ab", x39) * -1
    .add 104 (.ein [(107, [0, 1])] [0, 1]) (-1) 1,
    -- 632: x67 -= einsum("ab->ab", x39)
    .add 105 (.ein [(107, [0, 1])] [0, 1]) (-1) 1,
    -- 633: x100 = np.zeros((nocc, nocc, nvir, nvir), dtype=types[float])
    .zeros 108 [0, 0, 1, 1],
    -- 634: x100 -= einsum("ab,caij->jicb", x39, l2)
    .add 108 (.ein [(107, [0, 1]), (4, [2, 0, 3, 4])] [4, 3, 2, 1]) (-1) 1,
    -- 635: x106 -= einsum("ijab->ijab", x100)
    .add 63 (.ein [(108, [0, 1, 2, 3])] [0, 1, 2, 3]) (-1) 1,
    -- 636: del x100
    .del 108,
    -- 637: x118 += einsum("ab->ab", x39)
    .add 73 (.ein [(107, [0, 1])] [0, 1]) 1 1,
    -- 638: del x39
    .del 107,
    -- 639: x40 += einsum("ab->ab", f.vv)
    .add 104 (.ein [(22, [0, 1])] [0, 1]) 1 1,
    -- 640: x41 = np.zeros((nocc, nvir), dtype=types[float])
    .zeros 109 [0, 1],
    -- 641: x41 += einsum("ia,ba->ib", t1, x40)
    .add 109 (.ein [(7, [0, 1]), (104, [2, 1])] [0, 2]) 1 1,
    -- 642: del x40
    .del 104,
    -- 643: x45 += einsum("ia->ia", x41) * -1
    .add 67 (.ein [(109, [0, 1])] [0, 1]) (-1) 1,
    -- 644: del x41
    .del 109,
    -- 645: x42 = np.zeros((nbos), dtype=types[float])
    .zeros 110 [2],
    -- 646: x42 += einsum("ia,wia->w", t1, g.bov)
    .add 110 (.ein [(7, [0, 1]), (2, [2, 0, 1])] [2]) 1 1,
    -- 647: x43 = np.zeros((nbos), dtype=types[float])
    .zeros 111 [2],
    -- 648: x43 += einsum("w->w", x42)
    .add 111 (.ein [(110, [0])] [0]) 1 1,
    -- 649: del x42
    .del 110,
    -- 650: x43 += einsum("w->w", G)
    .add 111 (.ein [(23, [0])] [0]) 1 1,
    -- 651: x44 = np.zeros((nocc, nvir), dtype=types[float])
    .zeros 112 [0, 1],
    -- 652: x44 += einsum("w,wia->ia", x43, u11)
    .add 112 (.ein [(111, [0]), (10, [0, 1, 2])] [1, 2]) 1 1,
    -- 653: del x43
    .del 111,
    -- 654: x45 += einsum("ia->ia", x44) * -1
    .add 67 (.ein [(112, [0, 1])] [0, 1]) (-1) 1,
    -- 655: del x44
    .del 112,
    -- 656: x45 += einsum("ai->ia", f.vo) * -1
    .add 67 (.ein [(24, [0, 1])] [1, 0]) (-1) 1,
    -- 657: l1new += einsum("ia,abij->bj", x45, l2) * -1
    .add 33 (.ein [(67, [0, 1]), (4, [1, 2, 0, 3])] [2, 3]) (-1) 1,
    -- 658: ls1new += einsum("ia,wai->w", x45, lu11) * -1
    .add 53 (.ein [(67, [0, 1]), (21, [2, 1, 0])] [2]) (-1) 1,
    -- 659: del x45
    .del 67,
    -- 660: x46 = np.zeros((nocc, nvir), dtype=types[float])
    .zeros 113 [0, 1],
    -- 661: x46 += einsum("w,wia->ia", ls1, u11)
    .add 113 (.ein [(14, [0]), (10, [0, 1, 2])] [1, 2]) 1 1,
    -- 662: x54 += einsum("ia->ia", x46) * -1
    .add 39 (.ein [(113, [0, 1])] [0, 1]) (-1) 1,
    -- 663: del x46
    .del 113,
    -- 664: x47 = np.zeros((nocc, nvir), dtype=types[float])
    .zeros 114 [0, 1],
    -- 665: x47 += einsum("ai,jiba->jb", l1, t2)
    .add 114 (.ein [(12, [0, 1]), (5, [2, 1, 3, 0])] [2, 3]) 1 1,
    -- 666: x54 += einsum("ia->ia", x47) * -1
    .add 39 (.ein [(114, [0, 1])] [0, 1]) (-1) 1,
    -- 667: del x47
    .del 114,
    -- 668: x48 = np.zeros((nbos, nocc, nocc), dtype=types[float])
    .zeros 115 [2, 0, 0],
    -- 669: x48 += einsum("ia,waj->wji", t1, lu11)
    .add 115 (.ein [(7, [0, 1]), (21, [2, 1, 3])] [2, 3, 0]) 1 1,
    -- 670: x49 = np.zeros((nocc, nvir), dtype=types[float])
    .zeros 116 [0, 1],
    -- 671: x49 += einsum("wia,wij->ja", u11, x48)
    .add 116 (.ein [(10, [0, 1, 2]), (115, [0, 1, 3])] [3, 2]) 1 1,
    -- 672: x54 += einsum("ia->ia", x49)
    .add 39 (.ein [(116, [0, 1])] [0, 1]) 1 1,
    -- 673: del x49
    .del 116,
    -- 674: x117 = np.zeros((nbos, nocc, nvir), dtype=types[float])
    .zeros 117 [2, 0, 1],
    -- 675: x117 -= einsum("ia,wij->wja", t1, x48)
    .add 117 (.ein [(7, [0, 1]), (115, [2, 0, 3])] [2, 3, 1]) (-1) 1,
    -- 676: lu11new += einsum("wij,kjia->wak", x48, v.ooov)
    .add 77 (.ein [(115, [0, 1, 2]), (6, [3, 2, 1, 4])] [0, 4, 3]) 1 1,
    -- 677: x51 = np.zeros((nocc, nocc), dtype=types[float])
    .zeros 118 [0, 0],
    -- 678: x51 += einsum("wai,wja->ij", lu11, u11)
    .add 118 (.ein [(21, [0, 1, 2]), (10, [0, 3, 1])] [2, 3]) 1 1,
    -- 679: x52 += einsum("ij->ij", x51) * 2
    .add 50 (.ein [(118, [0, 1])] [0, 1]) 2 1,
    -- 680: x53 = np.zeros((nocc, nvir), dtype=types[float])
    .zeros 119 [0, 1],
    -- 681: x53 += einsum("ia,ij->ja", t1, x52) * 0.5
    .add 119 (.ein [(7, [0, 1]), (50, [0, 2])] [2, 1]) 1 2,
    -- 682: x54 += einsum("ia->ia", x53)
    .add 39 (.ein [(119, [0, 1])] [0, 1]) 1 1,
    -- 683: del x53
    .del 119,
    -- 684: l1new += einsum("ij,jkia->ak", x52, v.ooov) * -0.5
    .add 33 (.ein [(50, [0, 1]), (6, [1, 2, 0, 3])] [3, 2]) (-1) 2,
    -- 685: del x52
    .del 50,
    -- 686: x64 += einsum("ij->ij", x51)
    .add 55 (.ein [(118, [0, 1])] [0, 1]) 1 1,
    -- 687: x65 += einsum("w,ij->wij", s1, x64)
    .add 41 (.ein [(11, [0]), (55, [1, 2])] [0, 1, 2]) 1 1,
    -- 688: ls1new += einsum("ij,wji->w", x64, g.boo) * -1
    .add 53 (.ein [(55, [0, 1]), (0, [2, 1, 0])] [2]) (-1) 1,
    -- 689: del x64
    .del 55,
    -- 690: x68 += einsum("ij->ij", x51)
    .add 51 (.ein [(118, [0, 1])] [0, 1]) 1 1,
    -- 691: x93 = np.zeros((nocc, nocc, nvir, nvir), dtype=types[float])
    .zeros 120 [0, 0, 1, 1],
    -- 692: x93 += einsum("ij,jkab->kiab", x68, v.oovv)
    .add 120 (.ein [(51, [0, 1]), (8, [1, 2, 3, 4])] [2, 0, 3, 4]) 1 1,
    -- 693: x97 += einsum("ijab->jiba", x93)
    .add 99 (.ein [(120, [0, 1, 2, 3])] [1, 0, 3, 2]) 1 1,
    -- 694: del x93
    .del 120,
    -- 695: x120 += einsum("ij->ij", x51)
    .add 52 (.ein [(118, [0, 1])] [0, 1]) 1 1,
    -- 696: del x51
    .del 118,
    -- 697: lu11new += einsum("ij,wja->wai", x120, g.bov) * -1
    .add 77 (.ein [(52, [0, 1]), (2, [2, 1, 3])] [2, 3, 0]) (-1) 1,
    -- 698: del x120
    .del 52,
    -- 699: x54 += einsum("ia->ia", t1) * -1
    .add 39 (.ein [(7, [0, 1])] [0, 1]) (-1) 1,
    -- 700: l1new += einsum("ia,ijab->bj", x54, v.oovv) * -1
    .add 33 (.ein [(39, [0, 1]), (8, [0, 2, 1, 3])] [3, 2]) (-1) 1,
    -- 701: ls1new += einsum("ia,wia->w", x54, g.bov) * -1
    .add 53 (.ein [(39, [0, 1]), (2, [2, 0, 1])] [2]) (-1) 1,
    -- 702: del x54
    .del 39,
    -- 703: x55 = np.zeros((nvir, nvir), dtype=types[float])
    .zeros 121 [1, 1],
    -- 704: x55 += einsum("ai,ib->ab", l1, t1)
    .add 121 (.ein [(12, [0, 1]), (7, [1, 2])] [0, 2]) 1 1,
    -- 705: x58 = np.zeros((nvir, nvir), dtype=types[float])
    .zeros 122 [1, 1],
    -- 706: x58 += einsum("ab->ab", x55)
    .add 122 (.ein [(121, [0, 1])] [0, 1]) 1 1,
    -- 707: ls1new += einsum("ab,wab->w", x55, g.bvv)
    .add 53 (.ein [(121, [0, 1]), (3, [2, 0, 1])] [2]) 1 1,
    -- 708: del x55
    .del 121,
    -- 709: x56 = np.zeros((nvir, nvir), dtype=types[float])
    .zeros 123 [1, 1],
    -- 710: x56 += einsum("wai,wib->ab", lu11, u11)
    .add 123 (.ein [(21, [0, 1, 2]), (10, [0, 2, 3])] [1, 3]) 1 1,
    -- 711: x58 += einsum("ab->ab", x56)
    .add 122 (.ein [(123, [0, 1])] [0, 1]) 1 1,
    -- 712: x99 = np.zeros((nocc, nocc, nvir, nvir), dtype=types[float])
    .zeros 124 [0, 0, 1, 1],
    -- 713: x99 -= einsum("ab,ijcb->jiac", x56, v.oovv)
    .add 124 (.ein [(123, [0, 1]), (8, [2, 3, 4, 1])] [3, 2, 0, 4]) (-1) 1,
    -- 714: x106 += einsum("ijab->ijab", x99)
    .add 63 (.ein [(124, [0, 1, 2, 3])] [0, 1, 2, 3]) 1 1,
    -- 715: del x99
    .del 124,
    -- 716: x113 = np.zeros((nvir, nvir), dtype=types[float])
    .zeros 125 [1, 1],
    -- 717: x113 += einsum("ab->ab", x56) * 2
    .add 125 (.ein [(123, [0, 1])] [0, 1]) 2 1,
    -- 718: x119 = np.zeros((nvir, nvir), dtype=types[float])
    .zeros 126 [1, 1],
    -- 719: x119 += einsum("ab->ab", x56)
    .add 126 (.ein [(123, [0, 1])] [0, 1]) 1 1,
    -- 720: del x56
    .del 123,
    -- 721: x57 = np.zeros((nvir, nvir), dtype=types[float])
    .zeros 127 [1, 1],
    -- 722: x57 -= einsum("abij,ijbc->ac", l2, t2)
    .add 127 (.ein [(4, [0, 1, 2, 3]), (5, [2, 3, 1, 4])] [0, 4]) (-1) 1,
    -- 723: x58 += einsum("ab->ab", x57) * 0.5
    .add 122 (.ein [(127, [0, 1])] [0, 1]) 1 2,
    -- 724: l1new += einsum("ab,iabc->ci", x58, v.ovvv) * -1
    .add 33 (.ein [(122, [0, 1]), (9, [2, 0, 1, 3])] [3, 2]) (-1) 1,
    -- 725: del x58
    .del 122,
    -- 726: x85 = np.zeros((nocc, nocc, nvir, nvir), dtype=types[float])
    .zeros 128 [0, 0, 1, 1],
    -- 727: x85 += einsum("ab,ijcb->jiac", x57, v.oovv)
    .add 128 (.ein [(127, [0, 1]), (8, [2, 3, 4, 1])] [3, 2, 0, 4]) 1 1,
    -- 728: x88 = np.zeros((nocc, nocc, nvir, nvir), dtype=types[float])
    .zeros 129 [0, 0, 1, 1],
    -- 729: x88 += einsum("ijab->ijab", x85) * 0.5
    .add 129 (.ein [(128, [0, 1, 2, 3])] [0, 1, 2, 3]) 1 2,
    -- 730: del x85
    .del 128,
    -- 731: x113 += einsum("ab->ab", x57)
    .add 125 (.ein [(127, [0, 1])] [0, 1]) 1 1,
    -- 732: ls1new += einsum("ab,wab->w", x113, g.bvv) * 0.5
    .add 53 (.ein [(125, [0, 1]), (3, [2, 0, 1])] [2]) 1 2,
    -- 733: del x113
    .del 125,
    -- 734: x119 += einsum("ab->ab", x57) * 0.5
    .add 126 (.ein [(127, [0, 1])] [0, 1]) 1 2,
    -- 735: del x57
    .del 127,
    -- 736: lu11new += einsum("ab,wib->wai", x119, g.bov) * -1
    .add 77 (.ein [(126, [0, 1]), (2, [2, 3, 1])] [2, 0, 3]) (-1) 1,
    -- 737: del x119
    .del 126,
    -- 738: x59 += einsum("ia->ia", f.ov)
    .add 47 (.ein [(13, [0, 1])] [0, 1]) 1 1,
    -- 739: x62 = np.zeros((nbos, nocc, nocc), dtype=types[float])
    .zeros 130 [2, 0, 0],
    -- 740: x62 += einsum("ia,wja->wij", x59, u11)
    .add 130 (.ein [(47, [0, 1]), (10, [2, 3, 1])] [2, 0, 3]) 1 1,
    -- 741: x70 = np.zeros((nbos), dtype=types[float])
    .zeros 131 [2],
    -- 742: x70 += einsum("ia,wia->w", x59, u11)
    .add 131 (.ein [(47, [0, 1]), (10, [2, 0, 1])] [2]) 1 1,
    -- 743: del x59
    .del 47,
    -- 744: x60 = np.zeros((nbos, nocc, nvir), dtype=types[float])
    .zeros 132 [2, 0, 1],
    -- 745: x60 += einsum("wia,ijab->wjb", u11, v.oovv)
    .add 132 (.ein [(10, [0, 1, 2]), (8, [1, 3, 2, 4])] [0, 3, 4]) 1 1,
    -- 746: x61 = np.zeros((nbos, nocc, nvir), dtype=types[float])
    .zeros 133 [2, 0, 1],
    -- 747: x61 += einsum("wia->wia", x60)
    .add 133 (.ein [(132, [0, 1, 2])] [0, 1, 2]) 1 1,
    -- 748: x74 = np.zeros((nocc, nocc, nvir, nvir), dtype=types[float])
    .zeros 134 [0, 0, 1, 1],
    -- 749: x74 += einsum("wai,wjb->ijab", lu11, x60)
    .add 134 (.ein [(21, [0, 1, 2]), (132, [0, 3, 4])] [2, 3, 1, 4]) 1 1,
    -- 750: del x60
    .del 132,
    -- 751: x81 += einsum("ijab->ijab", x74)
    .add 43 (.ein [(134, [0, 1, 2, 3])] [0, 1, 2, 3]) 1 1,
    -- 752: del x74
    .del 134,
    -- 753: x61 += einsum("wia->wia", gc.bov)
    .add 133 (.ein [(27, [0, 1, 2])] [0, 1, 2]) 1 1,
    -- 754: x62 += einsum("ia,wja->wji", t1, x61)
    .add 130 (.ein [(7, [0, 1]), (133, [2, 3, 1])] [2, 3, 0]) 1 1,
    -- 755: l1new -= einsum("wij,wja->ai", x48, x61)
    .add 33 (.ein [(115, [0, 1, 2]), (133, [0, 2, 3])] [3, 1]) (-1) 1,
    -- 756: del x61
    .del 133,
    -- 757: x62 += einsum("wij->wij", gc.boo)
    .add 130 (.ein [(26, [0, 1, 2])] [0, 1, 2]) 1 1,
    -- 758: x62 += einsum("wia,jika->wjk", u11, v.ooov)
    .add 130 (.ein [(10, [0, 1, 2]), (6, [3, 1, 4, 2])] [0, 3, 4]) 1 1,
    -- 759: l1new -= einsum("wai,wji->aj", lu11, x62)
    .add 33 (.ein [(21, [0, 1, 2]), (130, [0, 3, 2])] [1, 3]) (-1) 1,
    -- 760: del x62
    .del 130,
    -- 761: x63 = np.zeros((nbos, nvir, nvir), dtype=types[float])
    .zeros 135 [2, 1, 1],
    -- 762: x63 += einsum("wab->wab", gc.bvv)
    .add 135 (.ein [(29, [0, 1, 2])] [0, 1, 2]) 1 1,
    -- 763: x63 -= einsum("wia,ibca->wbc", u11, v.ovvv)
    .add 135 (.ein [(10, [0, 1, 2]), (9, [1, 3, 4, 2])] [0, 3, 4]) (-1) 1,
    -- 764: l1new += einsum("wai,wab->bi", lu11, x63)
    .add 33 (.ein [(21, [0, 1, 2]), (135, [0, 1, 3])] [3, 2]) 1 1,
    -- 765: del x63
    .del 135,
    -- 766: x65 += einsum("ai,wja->wij", l1, u11)
    .add 41 (.ein [(12, [0, 1]), (10, [2, 3, 0])] [2, 1, 3]) 1 1,
    -- 767: l1new += einsum("wia,wji->aj", g.bov, x65) * -1
    .add 33 (.ein [(2, [0, 1, 2]), (41, [0, 3, 1])] [2, 3]) (-1) 1,
    -- 768: del x65
    .del 41,
    -- 769: x66 += einsum("wij->wij", g.boo)
    .add 92 (.ein [(0, [0, 1, 2])] [0, 1, 2]) 1 1,
    -- 770: x116 = np.zeros((nbos, nocc, nvir), dtype=types[float])
    .zeros 136 [2, 0, 1],
    -- 771: x116 -= einsum("ia,wij->wja", t1, x66)
    .add 136 (.ein [(7, [0, 1]), (92, [2, 0, 3])] [2, 3, 1]) (-1) 1,
    -- 772: l1new -= einsum("wia,wji->aj", x3, x66)
    .add 33 (.ein [(40, [0, 1, 2]), (92, [0, 3, 1])] [2, 3]) (-1) 1,
    -- 773: del x3
    .del 40,
    -- 774: lu11new -= einsum("ai,wji->waj", l1, x66)
    .add 77 (.ein [(12, [0, 1]), (92, [2, 3, 1])] [2, 0, 3]) (-1) 1,
    -- 775: del x66
    .del 92,
    -- 776: x67 += einsum("ab->ab", f.vv)
    .add 105 (.ein [(22, [0, 1])] [0, 1]) 1 1,
    -- 777: l1new += einsum("ai,ab->bi", l1, x67)
    .add 33 (.ein [(12, [0, 1]), (105, [0, 2])] [2, 1]) 1 1,
    -- 778: del x67
    .del 105,
    -- 779: x69 += einsum("ia->ia", f.ov)
    .add 69 (.ein [(13, [0, 1])] [0, 1]) 1 1,
    -- 780: l1new -= einsum("ij,ja->ai", x68, x69)
    .add 33 (.ein [(51, [0, 1]), (69, [1, 2])] [2, 0]) (-1) 1,
    -- 781: del x68
    .del 51,
    -- 782: del x69
    .del 69,
    -- 783: x70 += einsum("w->w", G)
    .add 131 (.ein [(23, [0])] [0]) 1 1,
    -- 784: x70 += einsum("w,xw->x", s1, w)
    .add 131 (.ein [(11, [0]), (25, [1, 0])] [1]) 1 1,
    -- 785: x70 += einsum("ia,wia->w", t1, gc.bov)
    .add 131 (.ein [(7, [0, 1]), (27, [2, 0, 1])] [2]) 1 1,
    -- 786: l1new += einsum("w,wai->ai", x70, lu11)
    .add 33 (.ein [(131, [0]), (21, [0, 1, 2])] [1, 2]) 1 1,
    -- 787: del x70
    .del 131,
    -- 788: x71 = np.zeros((nbos), dtype=types[float])
    .zeros 137 [2],
    -- 789: x71 += einsum("w->w", s1)
    .add 137 (.ein [(11, [0])] [0]) 1 1,
    -- 790: x71 += einsum("ai,wia->w", l1, u11)
    .add 137 (.ein [(12, [0, 1]), (10, [2, 1, 0])] [2]) 1 1,
    -- 791: l1new += einsum("w,wia->ai", x71, g.bov)
    .add 33 (.ein [(137, [0]), (2, [0, 1, 2])] [2, 1]) 1 1,
    -- 792: del x71
    .del 137,
    -- 793: x72 = np.zeros((nocc, nocc, nvir, nvir), dtype=types[float])
    .zeros 138 [0, 0, 1, 1],
    -- 794: x72 += einsum("wia,wbj->ijab", gc.bov, lu11)
    .add 138 (.ein [(27, [0, 1, 2]), (21, [0, 3, 4])] [1, 4, 2, 3]) 1 1,
    -- 795: x81 += einsum("ijab->ijab", x72)
    .add 43 (.ein [(138, [0, 1, 2, 3])] [0, 1, 2, 3]) 1 1,
    -- 796: del x72
    .del 138,
    -- 797: x75 = np.zeros((nocc, nocc, nvir, nvir), dtype=types[float])
    .zeros 139 [0, 0, 1, 1],
    -- 798: x75 -= einsum("ijab,ikca->jkbc", t2, v.oovv)
    .add 139 (.ein [(5, [0, 1, 2, 3]), (8, [0, 4, 5, 2])] [1, 4, 3, 5]) (-1) 1,
    -- 799: x76 += einsum("ijab->ijab", x75)
    .add 84 (.ein [(139, [0, 1, 2, 3])] [0, 1, 2, 3]) 1 1,
    -- 800: del x75
    .del 139,
    -- 801: x76 -= einsum("iajb->jiab", v.ovov)
    .add 84 (.ein [(16, [0, 1, 2, 3])] [2, 0, 1, 3]) (-1) 1,
    -- 802: x77 = np.zeros((nocc, nocc, nvir, nvir), dtype=types[float])
    .zeros 140 [0, 0, 1, 1],
    -- 803: x77 += einsum("abij,ikac->jkbc", l2, x76)
    .add 140 (.ein [(4, [0, 1, 2, 3]), (84, [2, 4, 0, 5])] [3, 4, 1, 5]) 1 1,
    -- 804: del x76
    .del 84,
    -- 805: x81 += einsum("ijab->ijab", x77)
    .add 43 (.ein [(140, [0, 1, 2, 3])] [0, 1, 2, 3]) 1 1,
    -- 806: del x77
    .del 140,
    -- 807: x78 += einsum("ijka->kjia", v.ooov)
    .add 61 (.ein [(6, [0, 1, 2, 3])] [2, 1, 0, 3]) 1 1,
    -- 808: x79 = np.zeros((nocc, nocc, nvir, nvir), dtype=types[float])
    .zeros 141 [0, 0, 1, 1],
    -- 809: x79 += einsum("ijka,iklb->jlab", x1, x78)
    .add 141 (.ein [(34, [0, 1, 2, 3]), (61, [0, 2, 4, 5])] [1, 4, 3, 5]) 1 1,
    -- 810: del x78
    .del 61,
    -- 811: x81 -= einsum("ijab->ijab", x79)
    .add 43 (.ein [(141, [0, 1, 2, 3])] [0, 1, 2, 3]) (-1) 1,
    -- 812: del x79
    .del 141,
    -- 813: x80 += einsum("ia->ia", f.ov)
    .add 48 (.ein [(13, [0, 1])] [0, 1]) 1 1,
    -- 814: x81 += einsum("ai,jb->jiba", l1, x80)
    .add 43 (.ein [(12, [0, 1]), (48, [2, 3])] [2, 1, 3, 0]) 1 1,
    -- 815: l2new += einsum("ijab->abij", x81)
    .add 37 (.ein [(43, [0, 1, 2, 3])] [2, 3, 0, 1]) 1 1,
    -- 816: l2new -= einsum("ijab->baij", x81)
    .add 37 (.ein [(43, [0, 1, 2, 3])] [3, 2, 0, 1]) (-1) 1,
    -- 817: l2new -= einsum("ijab->abji", x81)
    .add 37 (.ein [(43, [0, 1, 2, 3])] [2, 3, 1, 0]) (-1) 1,
    -- 818: l2new += einsum("ijab->baji", x81)
    .add 37 (.ein [(43, [0, 1, 2, 3])] [3, 2, 1, 0]) 1 1,
    -- 819: del x81
    .del 43,
    -- 820: x90 = np.zeros((nocc, nocc), dtype=types[float])
    .zeros 142 [0, 0],
    -- 821: x90 += einsum("ia,ja->ij", t1, x80)
    .add 142 (.ein [(7, [0, 1]), (48, [2, 1])] [0, 2]) 1 1,
    -- 822: x91 += einsum("ij->ji", x90)
    .add 95 (.ein [(142, [0, 1])] [1, 0]) 1 1,
    -- 823: del x90
    .del 142,
    -- 824: x105 = np.zeros((nocc, nocc, nvir, nvir), dtype=types[float])
    .zeros 143 [0, 0, 1, 1],
    -- 825: x105 += einsum("ia,jkib->jkba", x80, x1)
    .add 143 (.ein [(48, [0, 1]), (34, [2, 3, 0, 4])] [2, 3, 4, 1]) 1 1,
    -- 826: del x1
    .del 34,
    -- 827: x106 -= einsum("ijab->jiba", x105)
    .add 63 (.ein [(143, [0, 1, 2, 3])] [1, 0, 3, 2]) (-1) 1,
    -- 828: del x105
    .del 143,
    -- 829: lu11new -= einsum("ia,wji->waj", x80, x48)
    .add 77 (.ein [(48, [0, 1]), (115, [2, 3, 0])] [2, 1, 3]) (-1) 1,
    -- 830: del x48
    .del 115,
    -- 831: del x80
    .del 48,
    -- 832: x86 = np.zeros((nvir, nvir), dtype=types[float])
    .zeros 144 [1, 1],
    -- 833: x86 += einsum("ijab,ijac->bc", t2, v.oovv)
    .add 144 (.ein [(5, [0, 1, 2, 3]), (8, [0, 1, 2, 4])] [3, 4]) 1 1,
    -- 834: x87 = np.zeros((nocc, nocc, nvir, nvir), dtype=types[float])
    .zeros 145 [0, 0, 1, 1],
    -- 835: x87 -= einsum("ab,caij->jicb", x86, l2)
    .add 145 (.ein [(144, [0, 1]), (4, [2, 0, 3, 4])] [4, 3, 2, 1]) (-1) 1,
    -- 836: x88 += einsum("ijab->ijab", x87) * 0.5
    .add 129 (.ein [(145, [0, 1, 2, 3])] [0, 1, 2, 3]) 1 2,
    -- 837: del x87
    .del 145,
    -- 838: l2new += einsum("ijab->abij", x88) * -1
    .add 37 (.ein [(129, [0, 1, 2, 3])] [2, 3, 0, 1]) (-1) 1,
    -- 839: l2new += einsum("ijab->baij", x88)
    .add 37 (.ein [(129, [0, 1, 2, 3])] [3, 2, 0, 1]) 1 1,
    -- 840: del x88
    .del 129,
    -- 841: x118 += einsum("ab->ab", x86) * 0.5
    .add 73 (.ein [(144, [0, 1])] [0, 1]) 1 2,
    -- 842: del x86
    .del 144,
    -- 843: x89 = np.zeros((nocc, nocc, nvir, nvir), dtype=types[float])
    .zeros 146 [0, 0, 1, 1],
    -- 844: x89 += einsum("ai,jabc->ijbc", l1, v.ovvv)
    .add 146 (.ein [(12, [0, 1]), (9, [2, 0, 3, 4])] [1, 2, 3, 4]) 1 1,
    -- 845: x97 += einsum("ijab->ijba", x89)
    .add 99 (.ein [(146, [0, 1, 2, 3])] [0, 1, 3, 2]) 1 1,
    -- 846: del x89
    .del 146,
    -- 847: x91 += einsum("ij->ij", f.oo)
    .add 95 (.ein [(20, [0, 1])] [0, 1]) 1 1,
    -- 848: x92 = np.zeros((nocc, nocc, nvir, nvir), dtype=types[float])
    .zeros 147 [0, 0, 1, 1],
    -- 849: x92 += einsum("ij,abjk->kiab", x91, l2)
    .add 147 (.ein [(95, [0, 1]), (4, [2, 3, 1, 4])] [4, 0, 2, 3]) 1 1,
    -- 850: del x91
    .del 95,
    -- 851: x97 += einsum("ijab->jiba", x92)
    .add 99 (.ein [(147, [0, 1, 2, 3])] [1, 0, 3, 2]) 1 1,
    -- 852: del x92
    .del 147,
    -- 853: l2new += einsum("ijab->abij", x97)
    .add 37 (.ein [(99, [0, 1, 2, 3])] [2, 3, 0, 1]) 1 1,
    -- 854: l2new -= einsum("ijab->abji", x97)
    .add 37 (.ein [(99, [0, 1, 2, 3])] [2, 3, 1, 0]) (-1) 1,
    -- 855: del x97
    .del 99,
    -- 856: x102 = np.zeros((nvir, nvir), dtype=types[float])
    .zeros 148 [1, 1],
    -- 857: x102 += einsum("wia,wib->ab", g.bov, u11)
    .add 148 (.ein [(2, [0, 1, 2]), (10, [0, 1, 3])] [2, 3]) 1 1,
    -- 858: x103 -= einsum("ab->ba", x102)
    .add 106 (.ein [(148, [0, 1])] [1, 0]) (-1) 1,
    -- 859: x104 = np.zeros((nocc, nocc, nvir, nvir), dtype=types[float])
    .zeros 149 [0, 0, 1, 1],
    -- 860: x104 += einsum("ab,acij->ijcb", x103, l2)
    .add 149 (.ein [(106, [0, 1]), (4, [0, 2, 3, 4])] [3, 4, 2, 1]) 1 1,
    -- 861: del x103
    .del 106,
    -- 862: x106 -= einsum("ijab->jiba", x104)
    .add 63 (.ein [(149, [0, 1, 2, 3])] [1, 0, 3, 2]) (-1) 1,
    -- 863: del x104
    .del 149,
    -- 864: l2new += einsum("ijab->abij", x106)
    .add 37 (.ein [(63, [0, 1, 2, 3])] [2, 3, 0, 1]) 1 1,
    -- 865: l2new -= einsum("ijab->baij", x106)
    .add 37 (.ein [(63, [0, 1, 2, 3])] [3, 2, 0, 1]) (-1) 1,
    -- 866: del x106
    .del 63,
    -- 867: x118 += einsum("ab->ba", x102)
    .add 73 (.ein [(148, [0, 1])] [1, 0]) 1 1,
    -- 868: del x102
    .del 148,
    -- 869: x107 = np.zeros((nocc, nocc, nvir, nvir), dtype=types[float])
    .zeros 150 [0, 0, 1, 1],
    -- 870: x107 += einsum("ai,jkib->jkab", l1, v.ooov)
    .add 150 (.ein [(12, [0, 1]), (6, [2, 3, 1, 4])] [2, 3, 0, 4]) 1 1,
    -- 871: x109 = np.zeros((nocc, nocc, nvir, nvir), dtype=types[float])
    .zeros 151 [0, 0, 1, 1],
    -- 872: x109 -= einsum("ijab->jiab", x107)
    .add 151 (.ein [(150, [0, 1, 2, 3])] [1, 0, 2, 3]) (-1) 1,
    -- 873: del x107
    .del 150,
    -- 874: x108 = np.zeros((nocc, nocc, nvir, nvir), dtype=types[float])
    .zeros 152 [0, 0, 1, 1],
    -- 875: x108 += einsum("ab,caij->ijbc", f.vv, l2)
    .add 152 (.ein [(22, [0, 1]), (4, [2, 0, 3, 4])] [3, 4, 1, 2]) 1 1,
    -- 876: x109 -= einsum("ijab->jiab", x108)
    .add 151 (.ein [(152, [0, 1, 2, 3])] [1, 0, 2, 3]) (-1) 1,
    -- 877: del x108
    .del 152,
    -- 878: l2new -= einsum("ijab->abij", x109)
    .add 37 (.ein [(151, [0, 1, 2, 3])] [2, 3, 0, 1]) (-1) 1,
    -- 879: l2new += einsum("ijab->baij", x109)
    .add 37 (.ein [(151, [0, 1, 2, 3])] [3, 2, 0, 1]) 1 1,
    -- 880: del x109
    .del 151,
    -- 881: x110 += einsum("ijka->jika", v.ooov) * -1
    .add 64 (.ein [(6, [0, 1, 2, 3])] [1, 0, 2, 3]) (-1) 1,
    -- 882: x111 += einsum("ia,jkla->kjli", t1, x110) * -4
    .add 80 (.ein [(7, [0, 1]), (64, [2, 3, 4, 1])] [3, 2, 4, 0]) (-4) 1,
    -- 883: del x110
    .del 64,
    -- 884: x111 += einsum("ijkl->jilk", v.oooo) * 2
    .add 80 (.ein [(15, [0, 1, 2, 3])] [1, 0, 3, 2]) 2 1,
    -- 885: l2new += einsum("abij,klij->balk", l2, x111) * 0.25
    .add 37 (.ein [(4, [0, 1, 2, 3]), (80, [4, 5, 2, 3])] [1, 0, 5, 4]) 1 4,
    -- 886: del x111
    .del 80,
    -- 887: x114 = np.zeros((nbos, nbos), dtype=types[float])
    .zeros 153 [2, 2],
    -- 888: x114 += einsum("wai,xia->wx", lu11, u11)
    .add 153 (.ein [(21, [0, 1, 2]), (10, [3, 2, 1])] [0, 3]) 1 1,
    -- 889: lu11new += einsum("wx,xia->wai", x114, g.bov)
    .add 77 (.ein [(153, [0, 1]), (2, [1, 2, 3])] [0, 3, 2]) 1 1,
    -- 890: del x114
    .del 153,
    -- 891: x115 = np.zeros((nbos, nvir, nvir), dtype=types[float])
    .zeros 154 [2, 1, 1],
    -- 892: x115 += einsum("ia,wbi->wba", t1, lu11)
    .add 154 (.ein [(7, [0, 1]), (21, [2, 3, 0])] [2, 3, 1]) 1 1,
    -- 893: lu11new += einsum("wab,iacb->wci", x115, v.ovvv)
    .add 77 (.ein [(154, [0, 1, 2]), (9, [3, 1, 4, 2])] [0, 4, 3]) 1 1,
    -- 894: del x115
    .del 154,
    -- 895: x116 += einsum("wai->wia", g.bvo)
    .add 136 (.ein [(1, [0, 1, 2])] [0, 2, 1]) 1 1,
    -- 896: x116 += einsum("ia,wba->wib", t1, g.bvv)
    .add 136 (.ein [(7, [0, 1]), (3, [2, 3, 1])] [2, 0, 3]) 1 1,
    -- 897: x116 += einsum("wia,jiba->wjb", g.bov, t2)
    .add 136 (.ein [(2, [0, 1, 2]), (5, [3, 1, 4, 2])] [0, 3, 4]) 1 1,
    -- 898: lu11new += einsum("wia,abij->wbj", x116, l2)
    .add 77 (.ein [(136, [0, 1, 2]), (4, [2, 3, 1, 4])] [0, 3, 4]) 1 1,
    -- 899: del x116
    .del 136,
    -- 900: x117 += einsum("wai,ijab->wjb", lu11, t2)
    .add 117 (.ein [(21, [0, 1, 2]), (5, [2, 3, 1, 4])] [0, 3, 4]) 1 1,
    -- 901: lu11new += einsum("wia,ijab->wbj", x117, v.oovv)
    .add 77 (.ein [(117, [0, 1, 2]), (8, [1, 3, 2, 4])] [0, 4, 3]) 1 1,
    -- 902: del x117
    .del 117,
    -- 903: x118 += einsum("ab->ab", f.vv) * -1
    .add 73 (.ein [(22, [0, 1])] [0, 1]) (-1) 1,
    -- 904: lu11new += einsum("ab,wai->wbi", x118, lu11) * -1
    .add 77 (.ein [(73, [0, 1]), (21, [2, 0, 3])] [2, 1, 3]) (-1) 1,
    -- 905: del x118
    .del 73,
    -- 906: x121 = np.zeros((nbos, nbos), dtype=types[float])
    .zeros 155 [2, 2],
    -- 907: x121 += einsum("wx->wx", w)
    .add 155 (.ein [(25, [0, 1])] [0, 1]) 1 1,
    -- 908: x121 += einsum("wia,xia->xw", g.bov, u11)
    .add 155 (.ein [(2, [0, 1, 2]), (10, [3, 1, 2])] [3, 0]) 1 1,
    -- 909: lu11new += einsum("wx,wai->xai", x121, lu11)
    .add 77 (.ein [(155, [0, 1]), (21, [0, 2, 3])] [1, 2, 3]) 1 1,
    -- 910: del x121
    .del 155,
    -- 911: l1new -= einsum("ai,jaib->bj", l1, v.ovov)
    .add 33 (.ein [(12, [0, 1]), (16, [2, 0, 1, 3])] [3, 2]) (-1) 1,
    -- 912: l1new += einsum("ia->ai", f.ov)
    .add 33 (.ein [(13, [0, 1])] [1, 0]) 1 1,
    -- 913: l1new += einsum("w,wia->ai", ls1, gc.bov)
    .add 33 (.ein [(14, [0]), (27, [0, 1, 2])] [2, 1]) 1 1,
    -- 914: l2new += einsum("abij,abcd->dcji", l2, v.vvvv) * 0.5
    .add 37 (.ein [(4, [0, 1, 2, 3]), (19, [0, 1, 4, 5])] [5, 4, 3, 2]) 1 2,
    -- 915: l2new += einsum("ijab->baji", v.oovv)
    .add 37 (.ein [(8, [0, 1, 2, 3])] [3, 2, 1, 0]) 1 1,
    -- 916: ls1new += einsum("ai,wai->w", l1, g.bvo)
    .add 53 (.ein [(12, [0, 1]), (1, [2, 0, 1])] [2]) 1 1,
    -- 917: ls1new += einsum("w->w", G)
    .add 53 (.ein [(23, [0])] [0]) 1 1,
    -- 918: ls1new += einsum("w,wx->x", ls1, w)
    .add 53 (.ein [(14, [0]), (25, [0, 1])] [1]) 1 1,
    -- 919: lu11new += einsum("wia->wai", g.bov)
    .add 77 (.ein [(2, [0, 1, 2])] [0, 2, 1]) 1 1,
    -- 920: lu11new -= einsum("wai,jaib->wbj", lu11, v.ovov)
    .add 77 (.ein [(21, [0, 1, 2]), (16, [3, 1, 2, 4])] [0, 4, 3]) (-1) 1,
    -- 921: lu11new += einsum("ai,wab->wbi", l1, g.bvv)
    .add 77 (.ein [(12, [0, 1]), (3, [2, 0, 3])] [2, 3, 1]) 1 1
  ]
  ret := [(chars! "l1new", 33), (chars! "l2new", 37), (chars! "ls1new", 53), (chars! "lu11new", 77)]

/-- codegen/GCCSD_S_1_1.py:925-979 `make_rdm1_f`. -/
def make_rdm1_f : GenFun where
  args := [chars! "g.boo", chars! "g.bvo", chars! "g.bov", chars! "g.bvv", chars! "l1", chars! "t1", chars! "lu11", chars! "u11", chars! "l2", chars! "t2", chars! "ls1"]
  body := [
    -- 927: gc = Namespace(
    .set 11 (.tr 0 [0, 2, 1]) 1 1,
    .set 12 (.tr 1 [0, 2, 1]) 1 1,
    .set 13 (.tr 2 [0, 2, 1]) 1 1,
    .set 14 (.tr 3 [0, 2, 1]) 1 1,
    -- 934: delta_oo = np.eye(nocc)
    .eye 15 0,
    -- 935: delta_vv = np.eye(nvir)
    .eye 16 1,
    -- 938: x0 = np.zeros((nocc, nocc), dtype=types[float])
    .zeros 17 [0, 0],
    -- 939: x0 += einsum("ai,ja->ij", l1, t1)
    .add 17 (.ein [(4, [0, 1]), (5, [2, 0])] [1, 2]) 1 1,
    -- 940: x5 = np.zeros((nocc, nocc), dtype=types[float])
    .zeros 18 [0, 0],
    -- 941: x5 += einsum("ij->ij", x0)
    .add 18 (.ein [(17, [0, 1])] [0, 1]) 1 1,
    -- 942: rdm1_f_oo = np.zeros((nocc, nocc), dtype=types[float])
    .zeros 19 [0, 0],
    -- 943: rdm1_f_oo -= einsum("ij->ij", x0)
    .add 19 (.ein [(17, [0, 1])] [0, 1]) (-1) 1,
    -- 944: del x0
    .del 17,
    -- 945: x1 = np.zeros((nocc, nocc), dtype=types[float])
    .zeros 20 [0, 0],
    -- 946: x1 += einsum("wai,wja->ij", lu11, u11)
    .add 20 (.ein [(6, [0, 1, 2]), (7, [0, 3, 1])] [2, 3]) 1 1,
    -- 947: x5 += einsum("ij->ij", x1)
    .add 18 (.ein [(20, [0, 1])] [0, 1]) 1 1,
    -- 948: rdm1_f_oo -= einsum("ij->ij", x1)
    .add 19 (.ein [(20, [0, 1])] [0, 1]) (-1) 1,
    -- 949: del x1
    .del 20,
    -- 950: x2 = np.zeros((nocc, nocc), dtype=types[float])
    .zeros 21 [0, 0],
    -- 951: x2 += einsum("abij,kjab->ik", l2, t2)
    .add 21 (.ein [(8, [0, 1, 2, 3]), (9, [4, 3, 0, 1])] [2, 4]) 1 1,
    -- 952: x5 += einsum("ij->ij", x2) * 0.5
    .add 18 (.ein [(21, [0, 1])] [0, 1]) 1 2,
    -- 953: rdm1_f_vo = np.zeros((nvir, nocc), dtype=types[float])
    .zeros 22 [1, 0],
    -- 954: rdm1_f_vo += einsum("ia,ij->aj", t1, x5) * -1
    .add 22 (.ein [(5, [0, 1]), (18, [0, 2])] [1, 2]) (-1) 1,
    -- 955: del x5
    .del 18,
    -- 956: rdm1_f_oo += einsum("ij->ij", x2) * -0.5
    .add 19 (.ein [(21, [0, 1])] [0, 1]) (-1) 2,
    -- 957: del x2
    .del 21,
    -- 958: x3 = np.zeros((nbos, nocc, nocc), dtype=types[float])
    .zeros 23 [2, 0, 0],
    -- 959: x3 += einsum("ia,waj->wji", t1, lu11)
    .add 23 (.ein [(5, [0, 1]), (6, [2, 1, 3])] [2, 3, 0]) 1 1,
    -- 960: rdm1_f_vo -= einsum("wia,wij->aj", u11, x3)
    .add 22 (.ein [(7, [0, 1, 2]), (23, [0, 1, 3])] [2, 3]) (-1) 1,
    -- 961: del x3
    .del 23,
    -- 962: x4 = np.zeros((nocc, nocc, nocc, nvir), dtype=types[float])
    .zeros 24 [0, 0, 0, 1],
    -- 963: x4 += einsum("ia,bajk->jkib", t1, l2)
    .add 24 (.ein [(5, [0, 1]), (8, [2, 1, 3, 4])] [3, 4, 0, 2]) 1 1,
    -- 964: rdm1_f_vo += einsum("ijab,ijkb->ak", t2, x4) * 0.5
    .add 22 (.ein [(9, [0, 1, 2, 3]), (24, [0, 1, 4, 3])] [2, 4]) 1 2,
    -- 965: del x4
    .del 24,
    -- 966: rdm1_f_oo += einsum("ij->ji", delta_oo)
    .add 19 (.ein [(15, [0, 1])] [1, 0]) 1 1,
    -- 967: rdm1_f_ov = np.zeros((nocc, nvir), dtype=types[float])
    .zeros 25 [0, 1],
    -- 968: rdm1_f_ov += einsum("ai->ia", l1)
    .add 25 (.ein [(4, [0, 1])] [1, 0]) 1 1,
    -- 969: rdm1_f_vo += einsum("w,wia->ai", ls1, u11)
    .add 22 (.ein [(10, [0]), (7, [0, 1, 2])] [2, 1]) 1 1,
    -- 970: rdm1_f_vo += einsum("ia->ai", t1)
    .add 22 (.ein [(5, [0, 1])] [1, 0]) 1 1,
    -- 971: rdm1_f_vo += einsum("ai,jiba->bj", l1, t2)
    .add 22 (.ein [(4, [0, 1]), (9, [2, 1, 3, 0])] [3, 2]) 1 1,
    -- 972: rdm1_f_vv = np.zeros((nvir, nvir), dtype=types[float])
    .zeros 26 [1, 1],
    -- 973: rdm1_f_vv += einsum("ai,ib->ba", l1, t1)
    .add 26 (.ein [(4, [0, 1]), (5, [1, 2])] [2, 0]) 1 1,
    -- 974: rdm1_f_vv += einsum("wai,wib->ba", lu11, u11)
    .add 26 (.ein [(6, [0, 1, 2]), (7, [0, 2, 3])] [3, 1]) 1 1,
    -- 975: rdm1_f_vv += einsum("abij,ijca->cb", l2, t2) * -0.5
    .add 26 (.ein [(8, [0, 1, 2, 3]), (9, [2, 3, 4, 0])] [4, 1]) (-1) 2
  ]
  ret := [(chars! "rdm1_f.oo", 19), (chars! "rdm1_f.ov", 25), (chars! "rdm1_f.vo", 22), (chars! "rdm1_f.vv", 26)]

/-- codegen/GCCSD_S_1_1.py:981-1339 `make_rdm2_f`. -/
def make_rdm2_f : GenFun where
  args := [chars! "g.boo", chars! "g.bvo", chars! "g.bov", chars! "g.bvv", chars! "l2", chars! "t2", chars! "t1", chars! "l1", chars! "lu11", chars! "u11", chars! "ls1"]
  body := [
    -- 983: gc = Namespace(
    .set 11 (.tr 0 [0, 2, 1]) 1 1,
    .set 12 (.tr 1 [0, 2, 1]) 1 1,
    .set 13 (.tr 2 [0, 2, 1]) 1 1,
    .set 14 (.tr 3 [0, 2, 1]) 1 1,
    -- 990: delta_oo = np.eye(nocc)
    .eye 15 0,
    -- 991: delta_vv = np.eye(nvir)
    .eye 16 1,
    -- 994: x0 = np.zeros((nocc, nocc, nocc, nocc), dtype=types[float])
    .zeros 17 [0, 0, 0, 0],
    -- 995: x0 += einsum("abij,klab->ijkl", l2, t2)
    .add 17 (.ein [(4, [0, 1, 2, 3]), (5, [4, 5, 0, 1])] [2, 3, 4, 5]) 1 1,
    -- 996: x20 = np.zeros((nocc, nocc, nocc, nocc), dtype=types[float])
    .zeros 18 [0, 0, 0, 0],
    -- 997: x20 += einsum("ijkl->jilk", x0) * -1
    .add 18 (.ein [(17, [0, 1, 2, 3])] [1, 0, 3, 2]) (-1) 1,
    -- 998: x48 = np.zeros((nocc, nocc, nocc, nocc), dtype=types[float])
    .zeros 19 [0, 0, 0, 0],
    -- 999: x48 += einsum("ijkl->jilk", x0) * -1
    .add 19 (.ein [(17, [0, 1, 2, 3])] [1, 0, 3, 2]) (-1) 1,
    -- 1000: x49 = np.zeros((nocc, nocc, nocc, nocc), dtype=types[float])
    .zeros 20 [0, 0, 0, 0],
    -- 1001: x49 += einsum("ijkl->jilk", x0) * -1
    .add 20 (.ein [(17, [0, 1, 2, 3])] [1, 0, 3, 2]) (-1) 1,
    -- 1002: rdm2_f_oooo = np.zeros((nocc, nocc, nocc, nocc), dtype=types[float])
    .zeros 21 [0, 0, 0, 0],
    -- 1003: rdm2_f_oooo += einsum("ijkl->jilk", x0) * 0.5
    .add 21 (.ein [(17, [0, 1, 2, 3])] [1, 0, 3, 2]) 1 2,
    -- 1004: del x0
    .del 17,
    -- 1005: x1 = np.zeros((nocc, nocc, nocc, nvir), dtype=types[float])
    .zeros 22 [0, 0, 0, 1],
    -- 1006: x1 += einsum("ia,bajk->jkib", t1, l2)
    .add 22 (.ein [(6, [0, 1]), (4, [2, 1, 3, 4])] [3, 4, 0, 2]) 1 1,
    -- 1007: x2 = np.zeros((nocc, nocc, nocc, nocc), dtype=types[float])
    .zeros 23 [0, 0, 0, 0],
    -- 1008: x2 += einsum("ia,jkla->jkil", t1, x1)
    .add 23 (.ein [(6, [0, 1]), (22, [2, 3, 4, 1])] [2, 3, 0, 4]) 1 1,
    -- 1009: x20 += einsum("ijkl->ijlk", x2) * 2
    .add 18 (.ein [(23, [0, 1, 2, 3])] [0, 1, 3, 2]) 2 1,
    -- 1010: x21 = np.zeros((nocc, nocc, nocc, nvir), dtype=types[float])
    .zeros 24 [0, 0, 0, 1],
    -- 1011: x21 += einsum("ia,ijkl->jkla", t1, x20) * 0.5
    .add 24 (.ein [(6, [0, 1]), (18, [0, 2, 3, 4])] [2, 3, 4, 1]) 1 2,
    -- 1012: del x20
    .del 18,
    -- 1013: rdm2_f_ovoo = np.zeros((nocc, nvir, nocc, nocc), dtype=types[float])
    .zeros 25 [0, 1, 0, 0],
    -- 1014: rdm2_f_ovoo += einsum("ijka->iakj", x21) * -1
    .add 25 (.ein [(24, [0, 1, 2, 3])] [0, 3, 2, 1]) (-1) 1,
    -- 1015: rdm2_f_vooo = np.zeros((nvir, nocc, nocc, nocc), dtype=types[float])
    .zeros 26 [1, 0, 0, 0],
    -- 1016: rdm2_f_vooo += einsum("ijka->aikj", x21)
    .add 26 (.ein [(24, [0, 1, 2, 3])] [3, 0, 2, 1]) 1 1,
    -- 1017: del x21
    .del 24,
    -- 1018: x48 += einsum("ijkl->ijlk", x2) * 2.0000000000000013
    .add 19 (.ein [(23, [0, 1, 2, 3])] [0, 1, 3, 2]) 2 1,
    -- 1019: rdm2_f_vvoo = np.zeros((nvir, nvir, nocc, nocc), dtype=types[float])
    .zeros 27 [1, 1, 0, 0],
    -- 1020: rdm2_f_vvoo += einsum("ijab,ijkl->balk", t2, x48) * -0.25
    .add 27 (.ein [(5, [0, 1, 2, 3]), (19, [0, 1, 4, 5])] [3, 2, 5, 4]) (-1) 4,
    -- 1021: del x48
    .del 19,
    -- 1022: x49 += einsum("ijkl->ijlk", x2) * 1.9999999999999987
    .add 20 (.ein [(23, [0, 1, 2, 3])] [0, 1, 3, 2]) 2 1,
    -- 1023: x50 = np.zeros((nocc, nocc, nocc, nvir), dtype=types[float])
    .zeros 28 [0, 0, 0, 1],
    -- 1024: x50 += einsum("ia,ijkl->jlka", t1, x49) * -1
    .add 28 (.ein [(6, [0, 1]), (20, [0, 2, 3, 4])] [2, 4, 3, 1]) (-1) 1,
    -- 1025: del x49
    .del 20,
    -- 1026: rdm2_f_vvoo += einsum("ia,ijkb->abkj", t1, x50) * -0.5000000000000003
    .add 27 (.ein [(6, [0, 1]), (28, [0, 2, 3, 4])] [1, 4, 3, 2]) (-1) 2,
    -- 1027: del x50
    .del 28,
    -- 1028: rdm2_f_oooo -= einsum("ijkl->ijlk", x2)
    .add 21 (.ein [(23, [0, 1, 2, 3])] [0, 1, 3, 2]) (-1) 1,
    -- 1029: del x2
    .del 23,
    -- 1030: x9 = np.zeros((nocc, nocc, nocc, nvir), dtype=types[float])
    .zeros 29 [0, 0, 0, 1],
    -- 1031: x9 -= einsum("ijab,kjlb->klia", t2, x1)
    .add 29 (.ein [(5, [0, 1, 2, 3]), (22, [4, 1, 5, 3])] [4, 5, 0, 2]) (-1) 1,
    -- 1032: x15 = np.zeros((nocc, nocc, nocc, nvir), dtype=types[float])
    .zeros 30 [0, 0, 0, 1],
    -- 1033: x15 += einsum("ijka->ijka", x9)
    .add 30 (.ein [(29, [0, 1, 2, 3])] [0, 1, 2, 3]) 1 1,
    -- 1034: x25 = np.zeros((nocc, nocc, nocc, nvir), dtype=types[float])
    .zeros 31 [0, 0, 0, 1],
    -- 1035: x25 -= einsum("ijka->ijka", x9)
    .add 31 (.ein [(29, [0, 1, 2, 3])] [0, 1, 2, 3]) (-1) 1,
    -- 1036: x33 = np.zeros((nocc, nocc, nvir, nvir), dtype=types[float])
    .zeros 32 [0, 0, 1, 1],
    -- 1037: x33 += einsum("ia,ijkb->jkab", t1, x9)
    .add 32 (.ein [(6, [0, 1]), (29, [0, 2, 3, 4])] [2, 3, 1, 4]) 1 1,
    -- 1038: del x9
    .del 29,
    -- 1039: x38 = np.zeros((nocc, nocc, nvir, nvir), dtype=types[float])
    .zeros 33 [0, 0, 1, 1],
    -- 1040: x38 -= einsum("ijab->ijab", x33)
    .add 33 (.ein [(32, [0, 1, 2, 3])] [0, 1, 2, 3]) (-1) 1,
    -- 1041: del x33
    .del 32,
    -- 1042: x16 = np.zeros((nocc, nvir), dtype=types[float])
    .zeros 34 [0, 1],
    -- 1043: x16 -= einsum("ijab,ijkb->ka", t2, x1)
    .add 34 (.ein [(5, [0, 1, 2, 3]), (22, [0, 1, 4, 3])] [4, 2]) (-1) 1,
    -- 1044: x18 = np.zeros((nocc, nvir), dtype=types[float])
    .zeros 35 [0, 1],
    -- 1045: x18 += einsum("ia->ia", x16)
    .add 35 (.ein [(34, [0, 1])] [0, 1]) 1 1,
    -- 1046: del x16
    .del 34,
    -- 1047: x28 = np.zeros((nocc, nocc, nvir, nvir), dtype=types[float])
    .zeros 36 [0, 0, 1, 1],
    -- 1048: x28 += einsum("ia,jikb->jkba", t1, x1)
    .add 36 (.ein [(6, [0, 1]), (22, [2, 0, 3, 4])] [2, 3, 4, 1]) 1 1,
    -- 1049: x56 = np.zeros((nocc, nvir, nvir, nvir), dtype=types[float])
    .zeros 37 [0, 1, 1, 1],
    -- 1050: x56 -= einsum("ia,ijbc->jbca", t1, x28)
    .add 37 (.ein [(6, [0, 1]), (36, [0, 2, 3, 4])] [2, 3, 4, 1]) (-1) 1,
    -- 1051: rdm2_f_vvov = np.zeros((nvir, nvir, nocc, nvir), dtype=types[float])
    .zeros 38 [1, 1, 0, 1],
    -- 1052: rdm2_f_vvov -= einsum("iabc->cbia", x56)
    .add 38 (.ein [(37, [0, 1, 2, 3])] [3, 2, 0, 1]) (-1) 1,
    -- 1053: rdm2_f_vvvo = np.zeros((nvir, nvir, nvir, nocc), dtype=types[float])
    .zeros 39 [1, 1, 1, 0],
    -- 1054: rdm2_f_vvvo += einsum("iabc->cbai", x56)
    .add 39 (.ein [(37, [0, 1, 2, 3])] [3, 2, 1, 0]) 1 1,
    -- 1055: del x56
    .del 37,
    -- 1056: rdm2_f_ovov = np.zeros((nocc, nvir, nocc, nvir), dtype=types[float])
    .zeros 40 [0, 1, 0, 1],
    -- 1057: rdm2_f_ovov += einsum("ijab->ibja", x28)
    .add 40 (.ein [(36, [0, 1, 2, 3])] [0, 3, 1, 2]) 1 1,
    -- 1058: rdm2_f_ovvo = np.zeros((nocc, nvir, nvir, nocc), dtype=types[float])
    .zeros 41 [0, 1, 1, 0],
    -- 1059: rdm2_f_ovvo -= einsum("ijab->ibaj", x28)
    .add 41 (.ein [(36, [0, 1, 2, 3])] [0, 3, 2, 1]) (-1) 1,
    -- 1060: rdm2_f_voov = np.zeros((nvir, nocc, nocc, nvir), dtype=types[float])
    .zeros 42 [1, 0, 0, 1],
    -- 1061: rdm2_f_voov -= einsum("ijab->bija", x28)
    .add 42 (.ein [(36, [0, 1, 2, 3])] [3, 0, 1, 2]) (-1) 1,
    -- 1062: rdm2_f_vovo = np.zeros((nvir, nocc, nvir, nocc), dtype=types[float])
    .zeros 43 [1, 0, 1, 0],
    -- 1063: rdm2_f_vovo += einsum("ijab->biaj", x28)
    .add 43 (.ein [(36, [0, 1, 2, 3])] [3, 0, 2, 1]) 1 1,
    -- 1064: del x28
    .del 36,
    -- 1065: x55 = np.zeros((nocc, nvir, nvir, nvir), dtype=types[float])
    .zeros 44 [0, 1, 1, 1],
    -- 1066: x55 += einsum("ijab,ijkc->kcab", t2, x1)
    .add 44 (.ein [(5, [0, 1, 2, 3]), (22, [0, 1, 4, 5])] [4, 5, 2, 3]) 1 1,
    -- 1067: rdm2_f_vvov += einsum("iabc->bcia", x55) * 0.5
    .add 38 (.ein [(44, [0, 1, 2, 3])] [2, 3, 0, 1]) 1 2,
    -- 1068: rdm2_f_vvvo += einsum("iabc->bcai", x55) * -0.5
    .add 39 (.ein [(44, [0, 1, 2, 3])] [2, 3, 1, 0]) (-1) 2,
    -- 1069: del x55
    .del 44,
    -- 1070: rdm2_f_ooov = np.zeros((nocc, nocc, nocc, nvir), dtype=types[float])
    .zeros 45 [0, 0, 0, 1],
    -- 1071: rdm2_f_ooov -= einsum("ijka->jika", x1)
    .add 45 (.ein [(22, [0, 1, 2, 3])] [1, 0, 2, 3]) (-1) 1,
    -- 1072: rdm2_f_oovo = np.zeros((nocc, nocc, nvir, nocc), dtype=types[float])
    .zeros 46 [0, 0, 1, 0],
    -- 1073: rdm2_f_oovo += einsum("ijka->jiak", x1)
    .add 46 (.ein [(22, [0, 1, 2, 3])] [1, 0, 3, 2]) 1 1,
    -- 1074: del x1
    .del 22,
    -- 1075: x3 = np.zeros((nocc, nocc), dtype=types[float])
    .zeros 47 [0, 0],
    -- 1076: x3 += einsum("ai,ja->ij", l1, t1)
    .add 47 (.ein [(7, [0, 1]), (6, [2, 0])] [1, 2]) 1 1,
    -- 1077: x14 = np.zeros((nocc, nocc), dtype=types[float])
    .zeros 48 [0, 0],
    -- 1078: x14 += einsum("ij->ij", x3)
    .add 48 (.ein [(47, [0, 1])] [0, 1]) 1 1,
    -- 1079: x23 = np.zeros((nocc, nvir), dtype=types[float])
    .zeros 49 [0, 1],
    -- 1080: x23 += einsum("ia,ij->ja", t1, x3)
    .add 49 (.ein [(6, [0, 1]), (47, [0, 2])] [2, 1]) 1 1,
    -- 1081: x24 = np.zeros((nocc, nvir), dtype=types[float])
    .zeros 50 [0, 1],
    -- 1082: x24 -= einsum("ia->ia", x23)
    .add 50 (.ein [(49, [0, 1])] [0, 1]) (-1) 1,
    -- 1083: del x23
    .del 49,
    -- 1084: x43 = np.zeros((nocc, nocc, nvir, nvir), dtype=types[float])
    .zeros 51 [0, 0, 1, 1],
    -- 1085: x43 += einsum("ij,kiab->jkab", x3, t2)
    .add 51 (.ein [(47, [0, 1]), (5, [2, 0, 3, 4])] [1, 2, 3, 4]) 1 1,
    -- 1086: x45 = np.zeros((nocc, nocc, nvir, nvir), dtype=types[float])
    .zeros 52 [0, 0, 1, 1],
    -- 1087: x45 -= einsum("ijab->ijba", x43)
    .add 52 (.ein [(51, [0, 1, 2, 3])] [0, 1, 3, 2]) (-1) 1,
    -- 1088: del x43
    .del 51,
    -- 1089: rdm2_f_oooo -= einsum("ij,kl->jkil", delta_oo, x3)
    .add 21 (.ein [(15, [0, 1]), (47, [2, 3])] [1, 2, 0, 3]) (-1) 1,
    -- 1090: rdm2_f_oooo += einsum("ij,kl->kjil", delta_oo, x3)
    .add 21 (.ein [(15, [0, 1]), (47, [2, 3])] [2, 1, 0, 3]) 1 1,
    -- 1091: rdm2_f_oooo += einsum("ij,kl->jkli", delta_oo, x3)
    .add 21 (.ein [(15, [0, 1]), (47, [2, 3])] [1, 2, 3, 0]) 1 1,
    -- 1092: rdm2_f_oooo -= einsum("ij,kl->kjli", delta_oo, x3)
    .add 21 (.ein [(15, [0, 1]), (47, [2, 3])] [2, 1, 3, 0]) (-1) 1,
    -- 1093: del x3
    .del 47,
    -- 1094: x4 = np.zeros((nocc, nocc), dtype=types[float])
    .zeros 53 [0, 0],
    -- 1095: x4 += einsum("abij,kjab->ik", l2, t2)
    .add 53 (.ein [(4, [0, 1, 2, 3]), (5, [4, 3, 0, 1])] [2, 4]) 1 1,
    -- 1096: x17 = np.zeros((nocc, nvir), dtype=types[float])
    .zeros 54 [0, 1],
    -- 1097: x17 += einsum("ia,ij->ja", t1, x4)
    .add 54 (.ein [(6, [0, 1]), (53, [0, 2])] [2, 1]) 1 1,
    -- 1098: x18 += einsum("ia->ia", x17)
    .add 35 (.ein [(54, [0, 1])] [0, 1]) 1 1,
    -- 1099: del x17
    .del 54,
    -- 1100: x19 = np.zeros((nocc, nocc, nocc, nvir), dtype=types[float])
    .zeros 55 [0, 0, 0, 1],
    -- 1101: x19 += einsum("ij,ka->jika", delta_oo, x18) * 0.5
    .add 55 (.ein [(15, [0, 1]), (35, [2, 3])] [1, 0, 2, 3]) 1 2,
    -- 1102: rdm2_f_vooo += einsum("ij,ka->aijk", delta_oo, x18) * 0.5
    .add 26 (.ein [(15, [0, 1]), (35, [2, 3])] [3, 0, 1, 2]) 1 2,
    -- 1103: rdm2_f_vooo += einsum("ij,ka->aikj", delta_oo, x18) * -0.5
    .add 26 (.ein [(15, [0, 1]), (35, [2, 3])] [3, 0, 2, 1]) (-1) 2,
    -- 1104: rdm2_f_vvoo += einsum("ia,jb->abij", t1, x18) * -0.5000000000000003
    .add 27 (.ein [(6, [0, 1]), (35, [2, 3])] [1, 3, 0, 2]) (-1) 2,
    -- 1105: rdm2_f_vvoo += einsum("ia,jb->baij", t1, x18) * 0.5000000000000003
    .add 27 (.ein [(6, [0, 1]), (35, [2, 3])] [3, 1, 0, 2]) 1 2,
    -- 1106: rdm2_f_vvoo += einsum("ia,jb->abji", t1, x18) * 0.5000000000000003
    .add 27 (.ein [(6, [0, 1]), (35, [2, 3])] [1, 3, 2, 0]) 1 2,
    -- 1107: rdm2_f_vvoo += einsum("ia,jb->baji", t1, x18) * -0.5000000000000003
    .add 27 (.ein [(6, [0, 1]), (35, [2, 3])] [3, 1, 2, 0]) (-1) 2,
    -- 1108: del x18
    .del 35,
    -- 1109: x19 += einsum("ia,jk->jika", t1, x4) * -0.5
    .add 55 (.ein [(6, [0, 1]), (53, [2, 3])] [2, 0, 3, 1]) (-1) 2,
    -- 1110: rdm2_f_ovoo += einsum("ijka->iajk", x19) * -1
    .add 25 (.ein [(55, [0, 1, 2, 3])] [0, 3, 1, 2]) (-1) 1,
    -- 1111: rdm2_f_ovoo += einsum("ijka->iakj", x19)
    .add 25 (.ein [(55, [0, 1, 2, 3])] [0, 3, 2, 1]) 1 1,
    -- 1112: del x19
    .del 55,
    -- 1113: x47 = np.zeros((nocc, nocc, nvir, nvir), dtype=types[float])
    .zeros 56 [0, 0, 1, 1],
    -- 1114: x47 += einsum("ij,kiab->kjab", x4, t2)
    .add 56 (.ein [(53, [0, 1]), (5, [2, 0, 3, 4])] [2, 1, 3, 4]) 1 1,
    -- 1115: rdm2_f_vvoo += einsum("ijab->abij", x47) * -0.5
    .add 27 (.ein [(56, [0, 1, 2, 3])] [2, 3, 0, 1]) (-1) 2,
    -- 1116: rdm2_f_vvoo += einsum("ijab->abji", x47) * 0.5
    .add 27 (.ein [(56, [0, 1, 2, 3])] [2, 3, 1, 0]) 1 2,
    -- 1117: del x47
    .del 56,
    -- 1118: rdm2_f_oooo += einsum("ij,kl->ikjl", delta_oo, x4) * -0.5
    .add 21 (.ein [(15, [0, 1]), (53, [2, 3])] [0, 2, 1, 3]) (-1) 2,
    -- 1119: rdm2_f_oooo += einsum("ij,kl->iklj", delta_oo, x4) * 0.5
    .add 21 (.ein [(15, [0, 1]), (53, [2, 3])] [0, 2, 3, 1]) 1 2,
    -- 1120: rdm2_f_oooo += einsum("ij,kl->kjil", delta_oo, x4) * 0.5
    .add 21 (.ein [(15, [0, 1]), (53, [2, 3])] [2, 1, 0, 3]) 1 2,
    -- 1121: rdm2_f_oooo += einsum("ij,kl->kjli", delta_oo, x4) * -0.5
    .add 21 (.ein [(15, [0, 1]), (53, [2, 3])] [2, 1, 3, 0]) (-1) 2,
    -- 1122: rdm2_f_vooo += einsum("ia,jk->ajik", t1, x4) * -0.5
    .add 26 (.ein [(6, [0, 1]), (53, [2, 3])] [1, 2, 0, 3]) (-1) 2,
    -- 1123: rdm2_f_vooo += einsum("ia,jk->ajki", t1, x4) * 0.5
    .add 26 (.ein [(6, [0, 1]), (53, [2, 3])] [1, 2, 3, 0]) 1 2,
    -- 1124: del x4
    .del 53,
    -- 1125: x5 = np.zeros((nocc, nocc), dtype=types[float])
    .zeros 57 [0, 0],
    -- 1126: x5 += einsum("wai,wja->ij", lu11, u11)
    .add 57 (.ein [(8, [0, 1, 2]), (9, [0, 3, 1])] [2, 3]) 1 1,
    -- 1127: x12 = np.zeros((nocc, nvir), dtype=types[float])
    .zeros 58 [0, 1],
    -- 1128: x12 += einsum("ia,ij->ja", t1, x5)
    .add 58 (.ein [(6, [0, 1]), (57, [0, 2])] [2, 1]) 1 1,
    -- 1129: x13 = np.zeros((nocc, nvir), dtype=types[float])
    .zeros 59 [0, 1],
    -- 1130: x13 += einsum("ia->ia", x12)
    .add 59 (.ein [(58, [0, 1])] [0, 1]) 1 1,
    -- 1131: del x12
    .del 58,
    -- 1132: x14 += einsum("ij->ij", x5)
    .add 48 (.ein [(57, [0, 1])] [0, 1]) 1 1,
    -- 1133: x15 -= einsum("ia,jk->jika", t1, x14)
    .add 30 (.ein [(6, [0, 1]), (48, [2, 3])] [2, 0, 3, 1]) (-1) 1,
    -- 1134: x25 += einsum("ia,jk->jika", t1, x14)
    .add 31 (.ein [(6, [0, 1]), (48, [2, 3])] [2, 0, 3, 1]) 1 1,
    -- 1135: x51 = np.zeros((nocc, nvir), dtype=types[float])
    .zeros 60 [0, 1],
    -- 1136: x51 += einsum("ia,ij->ja", t1, x14)
    .add 60 (.ein [(6, [0, 1]), (48, [0, 2])] [2, 1]) 1 1,
    -- 1137: del x14
    .del 48,
    -- 1138: x52 = np.zeros((nocc, nvir), dtype=types[float])
    .zeros 61 [0, 1],
    -- 1139: x52 += einsum("ia->ia", x51)
    .add 61 (.ein [(60, [0, 1])] [0, 1]) 1 1,
    -- 1140: x53 = np.zeros((nocc, nvir), dtype=types[float])
    .zeros 62 [0, 1],
    -- 1141: x53 += einsum("ia->ia", x51)
    .add 62 (.ein [(60, [0, 1])] [0, 1]) 1 1,
    -- 1142: del x51
    .del 60,
    -- 1143: x44 = np.zeros((nocc, nocc, nvir, nvir), dtype=types[float])
    .zeros 63 [0, 0, 1, 1],
    -- 1144: x44 += einsum("ij,kiab->kjab", x5, t2)
    .add 63 (.ein [(57, [0, 1]), (5, [2, 0, 3, 4])] [2, 1, 3, 4]) 1 1,
    -- 1145: x45 += einsum("ijab->ijba", x44)
    .add 52 (.ein [(63, [0, 1, 2, 3])] [0, 1, 3, 2]) 1 1,
    -- 1146: del x44
    .del 63,
    -- 1147: rdm2_f_vvoo -= einsum("ijab->baij", x45)
    .add 27 (.ein [(52, [0, 1, 2, 3])] [3, 2, 0, 1]) (-1) 1,
    -- 1148: rdm2_f_vvoo += einsum("ijab->baji", x45)
    .add 27 (.ein [(52, [0, 1, 2, 3])] [3, 2, 1, 0]) 1 1,
    -- 1149: del x45
    .del 52,
    -- 1150: rdm2_f_oooo -= einsum("ij,kl->ikjl", delta_oo, x5)
    .add 21 (.ein [(15, [0, 1]), (57, [2, 3])] [0, 2, 1, 3]) (-1) 1,
    -- 1151: rdm2_f_oooo += einsum("ij,kl->iklj", delta_oo, x5)
    .add 21 (.ein [(15, [0, 1]), (57, [2, 3])] [0, 2, 3, 1]) 1 1,
    -- 1152: rdm2_f_oooo += einsum("ij,kl->kjil", delta_oo, x5)
    .add 21 (.ein [(15, [0, 1]), (57, [2, 3])] [2, 1, 0, 3]) 1 1,
    -- 1153: rdm2_f_oooo -= einsum("ij,kl->kjli", delta_oo, x5)
    .add 21 (.ein [(15, [0, 1]), (57, [2, 3])] [2, 1, 3, 0]) (-1) 1,
    -- 1154: del x5
    .del 57,
    -- 1155: x6 = np.zeros((nocc, nocc, nocc, nvir), dtype=types[float])
    .zeros 64 [0, 0, 0, 1],
    -- 1156: x6 += einsum("ai,jkba->ijkb", l1, t2)
    .add 64 (.ein [(7, [0, 1]), (5, [2, 3, 4, 0])] [1, 2, 3, 4]) 1 1,
    -- 1157: x39 = np.zeros((nocc, nocc, nvir, nvir), dtype=types[float])
    .zeros 65 [0, 0, 1, 1],
    -- 1158: x39 += einsum("ia,ijkb->jkab", t1, x6)
    .add 65 (.ein [(6, [0, 1]), (64, [0, 2, 3, 4])] [2, 3, 1, 4]) 1 1,
    -- 1159: x42 = np.zeros((nocc, nocc, nvir, nvir), dtype=types[float])
    .zeros 66 [0, 0, 1, 1],
    -- 1160: x42 += einsum("ijab->ijab", x39)
    .add 66 (.ein [(65, [0, 1, 2, 3])] [0, 1, 2, 3]) 1 1,
    -- 1161: del x39
    .del 65,
    -- 1162: rdm2_f_ovoo -= einsum("ijka->iakj", x6)
    .add 25 (.ein [(64, [0, 1, 2, 3])] [0, 3, 2, 1]) (-1) 1,
    -- 1163: rdm2_f_vooo += einsum("ijka->aikj", x6)
    .add 26 (.ein [(64, [0, 1, 2, 3])] [3, 0, 2, 1]) 1 1,
    -- 1164: del x6
    .del 64,
    -- 1165: x7 = np.zeros((nbos, nocc, nocc), dtype=types[float])
    .zeros 67 [2, 0, 0],
    -- 1166: x7 += einsum("ia,waj->wji", t1, lu11)
    .add 67 (.ein [(6, [0, 1]), (8, [2, 1, 3])] [2, 3, 0]) 1 1,
    -- 1167: x8 = np.zeros((nocc, nocc, nocc, nvir), dtype=types[float])
    .zeros 68 [0, 0, 0, 1],
    -- 1168: x8 += einsum("wia,wjk->jkia", u11, x7)
    .add 68 (.ein [(9, [0, 1, 2]), (67, [0, 3, 4])] [3, 4, 1, 2]) 1 1,
    -- 1169: x15 += einsum("ijka->ijka", x8)
    .add 30 (.ein [(68, [0, 1, 2, 3])] [0, 1, 2, 3]) 1 1,
    -- 1170: x25 -= einsum("ijka->ijka", x8)
    .add 31 (.ein [(68, [0, 1, 2, 3])] [0, 1, 2, 3]) (-1) 1,
    -- 1171: del x8
    .del 68,
    -- 1172: rdm2_f_vooo -= einsum("ijka->aijk", x25)
    .add 26 (.ein [(31, [0, 1, 2, 3])] [3, 0, 1, 2]) (-1) 1,
    -- 1173: rdm2_f_vooo += einsum("ijka->aikj", x25)
    .add 26 (.ein [(31, [0, 1, 2, 3])] [3, 0, 2, 1]) 1 1,
    -- 1174: del x25
    .del 31,
    -- 1175: x11 = np.zeros((nocc, nvir), dtype=types[float])
    .zeros 69 [0, 1],
    -- 1176: x11 += einsum("wia,wij->ja", u11, x7)
    .add 69 (.ein [(9, [0, 1, 2]), (67, [0, 1, 3])] [3, 2]) 1 1,
    -- 1177: x13 += einsum("ia->ia", x11)
    .add 59 (.ein [(69, [0, 1])] [0, 1]) 1 1,
    -- 1178: x52 += einsum("ia->ia", x11)
    .add 61 (.ein [(69, [0, 1])] [0, 1]) 1 1,
    -- 1179: x53 += einsum("ia->ia", x11)
    .add 62 (.ein [(69, [0, 1])] [0, 1]) 1 1,
    -- 1180: del x11
    .del 69,
    -- 1181: x35 = np.zeros((nbos, nocc, nvir), dtype=types[float])
    .zeros 70 [2, 0, 1],
    -- 1182: x35 += einsum("ia,wij->wja", t1, x7)
    .add 70 (.ein [(6, [0, 1]), (67, [2, 0, 3])] [2, 3, 1]) 1 1,
    -- 1183: del x7
    .del 67,
    -- 1184: x36 = np.zeros((nbos, nocc, nvir), dtype=types[float])
    .zeros 71 [2, 0, 1],
    -- 1185: x36 -= einsum("wia->wia", x35)
    .add 71 (.ein [(70, [0, 1, 2])] [0, 1, 2]) (-1) 1,
    -- 1186: del x35
    .del 70,
    -- 1187: x10 = np.zeros((nocc, nvir), dtype=types[float])
    .zeros 72 [0, 1],
    -- 1188: x10 += einsum("ai,jiba->jb", l1, t2)
    .add 72 (.ein [(7, [0, 1]), (5, [2, 1, 3, 0])] [2, 3]) 1 1,
    -- 1189: x13 -= einsum("ia->ia", x10)
    .add 59 (.ein [(72, [0, 1])] [0, 1]) (-1) 1,
    -- 1190: x15 += einsum("ij,ka->jika", delta_oo, x13)
    .add 30 (.ein [(15, [0, 1]), (59, [2, 3])] [1, 0, 2, 3]) 1 1,
    -- 1191: rdm2_f_ovoo -= einsum("ijka->iajk", x15)
    .add 25 (.ein [(30, [0, 1, 2, 3])] [0, 3, 1, 2]) (-1) 1,
    -- 1192: rdm2_f_ovoo += einsum("ijka->iakj", x15)
    .add 25 (.ein [(30, [0, 1, 2, 3])] [0, 3, 2, 1]) 1 1,
    -- 1193: del x15
    .del 30,
    -- 1194: rdm2_f_vooo += einsum("ij,ka->aijk", delta_oo, x13)
    .add 26 (.ein [(15, [0, 1]), (59, [2, 3])] [3, 0, 1, 2]) 1 1,
    -- 1195: rdm2_f_vooo -= einsum("ij,ka->aikj", delta_oo, x13)
    .add 26 (.ein [(15, [0, 1]), (59, [2, 3])] [3, 0, 2, 1]) (-1) 1,
    -- 1196: del x13
    .del 59,
    -- 1197: x38 += einsum("ia,jb->ijab", t1, x10)
    .add 33 (.ein [(6, [0, 1]), (72, [2, 3])] [0, 2, 1, 3]) 1 1,
    -- 1198: del x10
    .del 72,
    -- 1199: x22 = np.zeros((nocc, nvir), dtype=types[float])
    .zeros 73 [0, 1],
    -- 1200: x22 += einsum("w,wia->ia", ls1, u11)
    .add 73 (.ein [(10, [0]), (9, [0, 1, 2])] [1, 2]) 1 1,
    -- 1201: x24 += einsum("ia->ia", x22)
    .add 50 (.ein [(73, [0, 1])] [0, 1]) 1 1,
    -- 1202: x52 -= einsum("ia->ia", x22)
    .add 61 (.ein [(73, [0, 1])] [0, 1]) (-1) 1,
    -- 1203: x53 -= einsum("ia->ia", x22)
    .add 62 (.ein [(73, [0, 1])] [0, 1]) (-1) 1,
    -- 1204: del x22
    .del 73,
    -- 1205: rdm2_f_vvoo += einsum("ia,jb->abji", t1, x53)
    .add 27 (.ein [(6, [0, 1]), (62, [2, 3])] [1, 3, 2, 0]) 1 1,
    -- 1206: rdm2_f_vvoo -= einsum("ia,jb->baji", t1, x53)
    .add 27 (.ein [(6, [0, 1]), (62, [2, 3])] [3, 1, 2, 0]) (-1) 1,
    -- 1207: del x53
    .del 62,
    -- 1208: x24 += einsum("ia->ia", t1)
    .add 50 (.ein [(6, [0, 1])] [0, 1]) 1 1,
    -- 1209: rdm2_f_ovoo -= einsum("ij,ka->jaki", delta_oo, x24)
    .add 25 (.ein [(15, [0, 1]), (50, [2, 3])] [1, 3, 2, 0]) (-1) 1,
    -- 1210: rdm2_f_ovoo += einsum("ij,ka->jaik", delta_oo, x24)
    .add 25 (.ein [(15, [0, 1]), (50, [2, 3])] [1, 3, 0, 2]) 1 1,
    -- 1211: rdm2_f_vooo -= einsum("ij,ka->ajik", delta_oo, x24)
    .add 26 (.ein [(15, [0, 1]), (50, [2, 3])] [3, 1, 0, 2]) (-1) 1,
    -- 1212: rdm2_f_vooo += einsum("ij,ka->ajki", delta_oo, x24)
    .add 26 (.ein [(15, [0, 1]), (50, [2, 3])] [3, 1, 2, 0]) 1 1,
    -- 1213: del x24
    .del 50,
    -- 1214: x26 = np.zeros((nocc, nocc, nvir, nvir), dtype=types[float])
    .zeros 74 [0, 0, 1, 1],
    -- 1215: x26 += einsum("wai,wjb->ijab", lu11, u11)
    .add 74 (.ein [(8, [0, 1, 2]), (9, [0, 3, 4])] [2, 3, 1, 4]) 1 1,
    -- 1216: rdm2_f_ovov -= einsum("ijab->ibja", x26)
    .add 40 (.ein [(74, [0, 1, 2, 3])] [0, 3, 1, 2]) (-1) 1,
    -- 1217: rdm2_f_ovvo += einsum("ijab->ibaj", x26)
    .add 41 (.ein [(74, [0, 1, 2, 3])] [0, 3, 2, 1]) 1 1,
    -- 1218: rdm2_f_voov += einsum("ijab->bija", x26)
    .add 42 (.ein [(74, [0, 1, 2, 3])] [3, 0, 1, 2]) 1 1,
    -- 1219: rdm2_f_vovo -= einsum("ijab->biaj", x26)
    .add 43 (.ein [(74, [0, 1, 2, 3])] [3, 0, 2, 1]) (-1) 1,
    -- 1220: del x26
    .del 74,
    -- 1221: x27 = np.zeros((nocc, nocc, nvir, nvir), dtype=types[float])
    .zeros 75 [0, 0, 1, 1],
    -- 1222: x27 -= einsum("abij,kjca->ikbc", l2, t2)
    .add 75 (.ein [(4, [0, 1, 2, 3]), (5, [4, 3, 5, 0])] [2, 4, 1, 5]) (-1) 1,
    -- 1223: x41 = np.zeros((nocc, nocc, nvir, nvir), dtype=types[float])
    .zeros 76 [0, 0, 1, 1],
    -- 1224: x41 += einsum("ijab,jkbc->ikac", t2, x27)
    .add 76 (.ein [(5, [0, 1, 2, 3]), (75, [1, 4, 3, 5])] [0, 4, 2, 5]) 1 1,
    -- 1225: x42 += einsum("ijab->ijab", x41)
    .add 66 (.ein [(76, [0, 1, 2, 3])] [0, 1, 2, 3]) 1 1,
    -- 1226: del x41
    .del 76,
    -- 1227: x60 = np.zeros((nocc, nvir, nvir, nvir), dtype=types[float])
    .zeros 77 [0, 1, 1, 1],
    -- 1228: x60 += einsum("ia,ijbc->jbac", t1, x27)
    .add 77 (.ein [(6, [0, 1]), (75, [0, 2, 3, 4])] [2, 3, 1, 4]) 1 1,
    -- 1229: x62 = np.zeros((nocc, nvir, nvir, nvir), dtype=types[float])
    .zeros 78 [0, 1, 1, 1],
    -- 1230: x62 -= einsum("iabc->iabc", x60)
    .add 78 (.ein [(77, [0, 1, 2, 3])] [0, 1, 2, 3]) (-1) 1,
    -- 1231: del x60
    .del 77,
    -- 1232: rdm2_f_ovov -= einsum("ijab->ibja", x27)
    .add 40 (.ein [(75, [0, 1, 2, 3])] [0, 3, 1, 2]) (-1) 1,
    -- 1233: rdm2_f_ovvo += einsum("ijab->ibaj", x27)
    .add 41 (.ein [(75, [0, 1, 2, 3])] [0, 3, 2, 1]) 1 1,
    -- 1234: rdm2_f_voov += einsum("ijab->bija", x27)
    .add 42 (.ein [(75, [0, 1, 2, 3])] [3, 0, 1, 2]) 1 1,
    -- 1235: rdm2_f_vovo -= einsum("ijab->biaj", x27)
    .add 43 (.ein [(75, [0, 1, 2, 3])] [3, 0, 2, 1]) (-1) 1,
    -- 1236: del x27
    .del 75,
    -- 1237: x29 = np.zeros((nvir, nvir), dtype=types[float])
    .zeros 79 [1, 1],
    -- 1238: x29 += einsum("ai,ib->ab", l1, t1)
    .add 79 (.ein [(7, [0, 1]), (6, [1, 2])] [0, 2]) 1 1,
    -- 1239: x32 = np.zeros((nvir, nvir), dtype=types[float])
    .zeros 80 [1, 1],
    -- 1240: x32 += einsum("ab->ab", x29)
    .add 80 (.ein [(79, [0, 1])] [0, 1]) 1 1,
    -- 1241: x61 = np.zeros((nvir, nvir), dtype=types[float])
    .zeros 81 [1, 1],
    -- 1242: x61 += einsum("ab->ab", x29)
    .add 81 (.ein [(79, [0, 1])] [0, 1]) 1 1,
    -- 1243: del x29
    .del 79,
    -- 1244: x30 = np.zeros((nvir, nvir), dtype=types[float])
    .zeros 82 [1, 1],
    -- 1245: x30 += einsum("wai,wib->ab", lu11, u11)
    .add 82 (.ein [(8, [0, 1, 2]), (9, [0, 2, 3])] [1, 3]) 1 1,
    -- 1246: x32 += einsum("ab->ab", x30)
    .add 80 (.ein [(82, [0, 1])] [0, 1]) 1 1,
    -- 1247: x40 = np.zeros((nocc, nocc, nvir, nvir), dtype=types[float])
    .zeros 83 [0, 0, 1, 1],
    -- 1248: x40 += einsum("ab,ijca->ijcb", x30, t2)
    .add 83 (.ein [(82, [0, 1]), (5, [2, 3, 4, 0])] [2, 3, 4, 1]) 1 1,
    -- 1249: x42 -= einsum("ijab->ijab", x40)
    .add 66 (.ein [(83, [0, 1, 2, 3])] [0, 1, 2, 3]) (-1) 1,
    -- 1250: del x40
    .del 83,
    -- 1251: rdm2_f_vvoo -= einsum("ijab->abji", x42)
    .add 27 (.ein [(66, [0, 1, 2, 3])] [2, 3, 1, 0]) (-1) 1,
    -- 1252: rdm2_f_vvoo += einsum("ijab->baji", x42)
    .add 27 (.ein [(66, [0, 1, 2, 3])] [3, 2, 1, 0]) 1 1,
    -- 1253: del x42
    .del 66,
    -- 1254: x61 += einsum("ab->ab", x30)
    .add 81 (.ein [(82, [0, 1])] [0, 1]) 1 1,
    -- 1255: del x30
    .del 82,
    -- 1256: x62 += einsum("ia,bc->ibac", t1, x61)
    .add 78 (.ein [(6, [0, 1]), (81, [2, 3])] [0, 2, 1, 3]) 1 1,
    -- 1257: del x61
    .del 81,
    -- 1258: x31 = np.zeros((nvir, nvir), dtype=types[float])
    .zeros 84 [1, 1],
    -- 1259: x31 -= einsum("abij,ijca->bc", l2, t2)
    .add 84 (.ein [(4, [0, 1, 2, 3]), (5, [2, 3, 4, 0])] [1, 4]) (-1) 1,
    -- 1260: x32 += einsum("ab->ab", x31) * 0.5
    .add 80 (.ein [(84, [0, 1])] [0, 1]) 1 2,
    -- 1261: rdm2_f_ovov += einsum("ij,ab->jbia", delta_oo, x32)
    .add 40 (.ein [(15, [0, 1]), (80, [2, 3])] [1, 3, 0, 2]) 1 1,
    -- 1262: rdm2_f_ovvo += einsum("ij,ab->jbai", delta_oo, x32) * -1
    .add 41 (.ein [(15, [0, 1]), (80, [2, 3])] [1, 3, 2, 0]) (-1) 1,
    -- 1263: rdm2_f_voov += einsum("ij,ab->bjia", delta_oo, x32) * -1
    .add 42 (.ein [(15, [0, 1]), (80, [2, 3])] [3, 1, 0, 2]) (-1) 1,
    -- 1264: rdm2_f_vovo += einsum("ij,ab->bjai", delta_oo, x32)
    .add 43 (.ein [(15, [0, 1]), (80, [2, 3])] [3, 1, 2, 0]) 1 1,
    -- 1265: del x32
    .del 80,
    -- 1266: x46 = np.zeros((nocc, nocc, nvir, nvir), dtype=types[float])
    .zeros 85 [0, 0, 1, 1],
    -- 1267: x46 += einsum("ab,ijca->ijcb", x31, t2)
    .add 85 (.ein [(84, [0, 1]), (5, [2, 3, 4, 0])] [2, 3, 4, 1]) 1 1,
    -- 1268: rdm2_f_vvoo += einsum("ijab->abji", x46) * 0.5
    .add 27 (.ein [(85, [0, 1, 2, 3])] [2, 3, 1, 0]) 1 2,
    -- 1269: rdm2_f_vvoo += einsum("ijab->baji", x46) * -0.5
    .add 27 (.ein [(85, [0, 1, 2, 3])] [3, 2, 1, 0]) (-1) 2,
    -- 1270: del x46
    .del 85,
    -- 1271: rdm2_f_vvov += einsum("ia,bc->acib", t1, x31) * 0.5
    .add 38 (.ein [(6, [0, 1]), (84, [2, 3])] [1, 3, 0, 2]) 1 2,
    -- 1272: rdm2_f_vvov += einsum("ia,bc->caib", t1, x31) * -0.5
    .add 38 (.ein [(6, [0, 1]), (84, [2, 3])] [3, 1, 0, 2]) (-1) 2,
    -- 1273: rdm2_f_vvvo += einsum("ia,bc->acbi", t1, x31) * -0.5
    .add 39 (.ein [(6, [0, 1]), (84, [2, 3])] [1, 3, 2, 0]) (-1) 2,
    -- 1274: rdm2_f_vvvo += einsum("ia,bc->cabi", t1, x31) * 0.5
    .add 39 (.ein [(6, [0, 1]), (84, [2, 3])] [3, 1, 2, 0]) 1 2,
    -- 1275: del x31
    .del 84,
    -- 1276: x34 = np.zeros((nbos, nocc, nvir), dtype=types[float])
    .zeros 86 [2, 0, 1],
    -- 1277: x34 += einsum("wai,jiba->wjb", lu11, t2)
    .add 86 (.ein [(8, [0, 1, 2]), (5, [3, 2, 4, 1])] [0, 3, 4]) 1 1,
    -- 1278: x36 += einsum("wia->wia", x34)
    .add 71 (.ein [(86, [0, 1, 2])] [0, 1, 2]) 1 1,
    -- 1279: del x34
    .del 86,
    -- 1280: x37 = np.zeros((nocc, nocc, nvir, nvir), dtype=types[float])
    .zeros 87 [0, 0, 1, 1],
    -- 1281: x37 += einsum("wia,wjb->jiba", u11, x36)
    .add 87 (.ein [(9, [0, 1, 2]), (71, [0, 3, 4])] [3, 1, 4, 2]) 1 1,
    -- 1282: del x36
    .del 71,
    -- 1283: x38 += einsum("ijab->ijab", x37)
    .add 33 (.ein [(87, [0, 1, 2, 3])] [0, 1, 2, 3]) 1 1,
    -- 1284: del x37
    .del 87,
    -- 1285: rdm2_f_vvoo += einsum("ijab->abij", x38)
    .add 27 (.ein [(33, [0, 1, 2, 3])] [2, 3, 0, 1]) 1 1,
    -- 1286: rdm2_f_vvoo -= einsum("ijab->baij", x38)
    .add 27 (.ein [(33, [0, 1, 2, 3])] [3, 2, 0, 1]) (-1) 1,
    -- 1287: rdm2_f_vvoo -= einsum("ijab->abji", x38)
    .add 27 (.ein [(33, [0, 1, 2, 3])] [2, 3, 1, 0]) (-1) 1,
    -- 1288: rdm2_f_vvoo += einsum("ijab->baji", x38)
    .add 27 (.ein [(33, [0, 1, 2, 3])] [3, 2, 1, 0]) 1 1,
    -- 1289: del x38
    .del 33,
    -- 1290: x52 -= einsum("ia->ia", t1)
    .add 61 (.ein [(6, [0, 1])] [0, 1]) (-1) 1,
    -- 1291: rdm2_f_vvoo += einsum("ia,jb->baij", t1, x52)
    .add 27 (.ein [(6, [0, 1]), (61, [2, 3])] [3, 1, 0, 2]) 1 1,
    -- 1292: rdm2_f_vvoo -= einsum("ia,jb->abij", t1, x52)
    .add 27 (.ein [(6, [0, 1]), (61, [2, 3])] [1, 3, 0, 2]) (-1) 1,
    -- 1293: del x52
    .del 61,
    -- 1294: x54 = np.zeros((nocc, nvir, nvir, nvir), dtype=types[float])
    .zeros 88 [0, 1, 1, 1],
    -- 1295: x54 += einsum("ia,bcji->jbca", t1, l2)
    .add 88 (.ein [(6, [0, 1]), (4, [2, 3, 4, 0])] [4, 2, 3, 1]) 1 1,
    -- 1296: rdm2_f_ovvv = np.zeros((nocc, nvir, nvir, nvir), dtype=types[float])
    .zeros 89 [0, 1, 1, 1],
    -- 1297: rdm2_f_ovvv -= einsum("iabc->icba", x54)
    .add 89 (.ein [(88, [0, 1, 2, 3])] [0, 3, 2, 1]) (-1) 1,
    -- 1298: rdm2_f_vovv = np.zeros((nvir, nocc, nvir, nvir), dtype=types[float])
    .zeros 90 [1, 0, 1, 1],
    -- 1299: rdm2_f_vovv += einsum("iabc->ciba", x54)
    .add 90 (.ein [(88, [0, 1, 2, 3])] [3, 0, 2, 1]) 1 1,
    -- 1300: rdm2_f_vvvv = np.zeros((nvir, nvir, nvir, nvir), dtype=types[float])
    .zeros 91 [1, 1, 1, 1],
    -- 1301: rdm2_f_vvvv -= einsum("ia,ibcd->adcb", t1, x54)
    .add 91 (.ein [(6, [0, 1]), (88, [0, 2, 3, 4])] [1, 4, 3, 2]) (-1) 1,
    -- 1302: del x54
    .del 88,
    -- 1303: x57 = np.zeros((nocc, nvir, nvir, nvir), dtype=types[float])
    .zeros 92 [0, 1, 1, 1],
    -- 1304: x57 += einsum("ai,jibc->jabc", l1, t2)
    .add 92 (.ein [(7, [0, 1]), (5, [2, 1, 3, 4])] [2, 0, 3, 4]) 1 1,
    -- 1305: rdm2_f_vvov -= einsum("iabc->cbia", x57)
    .add 38 (.ein [(92, [0, 1, 2, 3])] [3, 2, 0, 1]) (-1) 1,
    -- 1306: rdm2_f_vvvo += einsum("iabc->cbai", x57)
    .add 39 (.ein [(92, [0, 1, 2, 3])] [3, 2, 1, 0]) 1 1,
    -- 1307: del x57
    .del 92,
    -- 1308: x58 = np.zeros((nbos, nvir, nvir), dtype=types[float])
    .zeros 93 [2, 1, 1],
    -- 1309: x58 += einsum("ia,wbi->wba", t1, lu11)
    .add 93 (.ein [(6, [0, 1]), (8, [2, 3, 0])] [2, 3, 1]) 1 1,
    -- 1310: x59 = np.zeros((nocc, nvir, nvir, nvir), dtype=types[float])
    .zeros 94 [0, 1, 1, 1],
    -- 1311: x59 += einsum("wia,wbc->ibca", u11, x58)
    .add 94 (.ein [(9, [0, 1, 2]), (93, [0, 3, 4])] [1, 3, 4, 2]) 1 1,
    -- 1312: del x58
    .del 93,
    -- 1313: x62 -= einsum("iabc->iabc", x59)
    .add 78 (.ein [(94, [0, 1, 2, 3])] [0, 1, 2, 3]) (-1) 1,
    -- 1314: del x59
    .del 94,
    -- 1315: rdm2_f_vvov += einsum("iabc->bcia", x62)
    .add 38 (.ein [(78, [0, 1, 2, 3])] [2, 3, 0, 1]) 1 1,
    -- 1316: rdm2_f_vvov -= einsum("iabc->cbia", x62)
    .add 38 (.ein [(78, [0, 1, 2, 3])] [3, 2, 0, 1]) (-1) 1,
    -- 1317: rdm2_f_vvvo -= einsum("iabc->bcai", x62)
    .add 39 (.ein [(78, [0, 1, 2, 3])] [2, 3, 1, 0]) (-1) 1,
    -- 1318: rdm2_f_vvvo += einsum("iabc->cbai", x62)
    .add 39 (.ein [(78, [0, 1, 2, 3])] [3, 2, 1, 0]) 1 1,
    -- 1319: del x62
    .del 78,
    -- 1320: rdm2_f_oooo += einsum("ij,kl->jlik", delta_oo, delta_oo)
    .add 21 (.ein [(15, [0, 1]), (15, [2, 3])] [1, 3, 0, 2]) 1 1,
    -- 1321: rdm2_f_oooo -= einsum("ij,kl->lijk", delta_oo, delta_oo)
    .add 21 (.ein [(15, [0, 1]), (15, [2, 3])] [3, 0, 1, 2]) (-1) 1,
    -- 1322: rdm2_f_ooov += einsum("ij,ak->jkia", delta_oo, l1)
    .add 45 (.ein [(15, [0, 1]), (7, [2, 3])] [1, 3, 0, 2]) 1 1,
    -- 1323: rdm2_f_ooov -= einsum("ij,ak->kjia", delta_oo, l1)
    .add 45 (.ein [(15, [0, 1]), (7, [2, 3])] [3, 1, 0, 2]) (-1) 1,
    -- 1324: rdm2_f_oovo -= einsum("ij,ak->jkai", delta_oo, l1)
    .add 46 (.ein [(15, [0, 1]), (7, [2, 3])] [1, 3, 2, 0]) (-1) 1,
    -- 1325: rdm2_f_oovo += einsum("ij,ak->kjai", delta_oo, l1)
    .add 46 (.ein [(15, [0, 1]), (7, [2, 3])] [3, 1, 2, 0]) 1 1,
    -- 1326: rdm2_f_oovv = np.zeros((nocc, nocc, nvir, nvir), dtype=types[float])
    .zeros 95 [0, 0, 1, 1],
    -- 1327: rdm2_f_oovv += einsum("abij->jiba", l2)
    .add 95 (.ein [(4, [0, 1, 2, 3])] [3, 2, 1, 0]) 1 1,
    -- 1328: rdm2_f_ovov -= einsum("ai,jb->ibja", l1, t1)
    .add 40 (.ein [(7, [0, 1]), (6, [2, 3])] [1, 3, 2, 0]) (-1) 1,
    -- 1329: rdm2_f_ovvo += einsum("ai,jb->ibaj", l1, t1)
    .add 41 (.ein [(7, [0, 1]), (6, [2, 3])] [1, 3, 0, 2]) 1 1,
    -- 1330: rdm2_f_voov += einsum("ai,jb->bija", l1, t1)
    .add 42 (.ein [(7, [0, 1]), (6, [2, 3])] [3, 1, 2, 0]) 1 1,
    -- 1331: rdm2_f_vovo -= einsum("ai,jb->biaj", l1, t1)
    .add 43 (.ein [(7, [0, 1]), (6, [2, 3])] [3, 1, 0, 2]) (-1) 1,
    -- 1332: rdm2_f_vvoo += einsum("ijab->baji", t2)
    .add 27 (.ein [(5, [0, 1, 2, 3])] [3, 2, 1, 0]) 1 1,
    -- 1333: rdm2_f_vvvv += einsum("abij,ijcd->dcba", l2, t2) * 0.5
    .add 91 (.ein [(4, [0, 1, 2, 3]), (5, [2, 3, 4, 5])] [5, 4, 1, 0]) 1 2,
    -- 1337: rdm2_f = np.transpose(rdm2_f, (0, 2, 1, 3))
    .set 96 (.tr 21 [0, 2, 1, 3]) 1 1,
    .set 97 (.tr 45 [0, 2, 1, 3]) 1 1,
    .set 98 (.tr 25 [0, 2, 1, 3]) 1 1,
    .set 99 (.tr 46 [0, 2, 1, 3]) 1 1,
    .set 100 (.tr 26 [0, 2, 1, 3]) 1 1,
    .set 101 (.tr 40 [0, 2, 1, 3]) 1 1,
    .set 102 (.tr 95 [0, 2, 1, 3]) 1 1,
    .set 103 (.tr 41 [0, 2, 1, 3]) 1 1,
    .set 104 (.tr 42 [0, 2, 1, 3]) 1 1,
    .set 105 (.tr 27 [0, 2, 1, 3]) 1 1,
    .set 106 (.tr 43 [0, 2, 1, 3]) 1 1,
    .set 107 (.tr 89 [0, 2, 1, 3]) 1 1,
    .set 108 (.tr 38 [0, 2, 1, 3]) 1 1,
    .set 109 (.tr 90 [0, 2, 1, 3]) 1 1,
    .set 110 (.tr 39 [0, 2, 1, 3]) 1 1,
    .set 111 (.tr 91 [0, 2, 1, 3]) 1 1
  ]
  ret := [(chars! "rdm2_f.oooo", 96), (chars! "rdm2_f.ooov", 97), (chars! "rdm2_f.oovo", 98), (chars! "rdm2_f.ovoo", 99), (chars! "rdm2_f.vooo", 100), (chars! "rdm2_f.oovv", 101), (chars! "rdm2_f.ovov", 102), (chars! "rdm2_f.ovvo", 103), (chars! "rdm2_f.voov", 104), (chars! "rdm2_f.vovo", 105), (chars! "rdm2_f.vvoo", 106), (chars! "rdm2_f.ovvv", 107), (chars! "rdm2_f.vovv", 108), (chars! "rdm2_f.vvov", 109), (chars! "rdm2_f.vvvo", 110), (chars! "rdm2_f.vvvv", 111)]

/-- codegen/GCCSD_S_1_1.py:1341-1359 `make_sing_b_dm`. -/
def make_sing_b_dm : GenFun where
  args := [chars! "g.boo", chars! "g.bvo", chars! "g.bov", chars! "g.bvv", chars! "ls1", chars! "l1", chars! "u11", chars! "s1"]
  body := [
    -- 1343: gc = Namespace(
    .set 8 (.tr 0 [0, 2, 1]) 1 1,
    .set 9 (.tr 1 [0, 2, 1]) 1 1,
    .set 10 (.tr 2 [0, 2, 1]) 1 1,
    .set 11 (.tr 3 [0, 2, 1]) 1 1,
    -- 1351: dm_b_cre = np.zeros((nbos), dtype=types[float])
    .zeros 12 [2],
    -- 1352: dm_b_cre += einsum("w->w", ls1)
    .add 12 (.ein [(4, [0])] [0]) 1 1,
    -- 1353: dm_b_des = np.zeros((nbos), dtype=types[float])
    .zeros 13 [2],
    -- 1354: dm_b_des += einsum("ai,wia->w", l1, u11)
    .add 13 (.ein [(5, [0, 1]), (6, [2, 1, 0])] [2]) 1 1,
    -- 1355: dm_b_des += einsum("w->w", s1)
    .add 13 (.ein [(7, [0])] [0]) 1 1
  ]
  ret := [(chars! "dm_b.0", 12), (chars! "dm_b.1", 13)]

/-- codegen/GCCSD_S_1_1.py:1361-1375 `make_rdm1_b`. -/
def make_rdm1_b : GenFun where
  args := [chars! "g.boo", chars! "g.bvo", chars! "g.bov", chars! "g.bvv", chars! "lu11", chars! "u11", chars! "ls1", chars! "s1"]
  body := [
    -- 1363: gc = Namespace(
    .set 8 (.tr 0 [0, 2, 1]) 1 1,
    .set 9 (.tr 1 [0, 2, 1]) 1 1,
    .set 10 (.tr 2 [0, 2, 1]) 1 1,
    .set 11 (.tr 3 [0, 2, 1]) 1 1,
    -- 1371: rdm1_b = np.zeros((nbos, nbos), dtype=types[float])
    .zeros 12 [2, 2],
    -- 1372: rdm1_b += einsum("wai,xia->wx", lu11, u11)
    .add 12 (.ein [(4, [0, 1, 2]), (5, [3, 2, 1])] [0, 3]) 1 1,
    -- 1373: rdm1_b += einsum("w,x->wx", ls1, s1)
    .add 12 (.ein [(6, [0]), (7, [1])] [0, 1]) 1 1
  ]
  ret := [(chars! "rdm1_b", 12)]

/-- codegen/GCCSD_S_1_1.py:1377-1501 `make_eb_coup_rdm`. -/
def make_eb_coup_rdm : GenFun where
  args := [chars! "g.boo", chars! "g.bvo", chars! "g.bov", chars! "g.bvv", chars! "t1", chars! "lu11", chars! "u11", chars! "l1", chars! "l2", chars! "t2", chars! "s1", chars! "ls1"]
  body := [
    -- 1379: gc = Namespace(
    .set 12 (.tr 0 [0, 2, 1]) 1 1,
    .set 13 (.tr 1 [0, 2, 1]) 1 1,
    .set 14 (.tr 2 [0, 2, 1]) 1 1,
    .set 15 (.tr 3 [0, 2, 1]) 1 1,
    -- 1386: delta_oo = np.eye(nocc)
    .eye 16 0,
    -- 1387: delta_vv = np.eye(nvir)
    .eye 17 1,
    -- 1390: x0 = np.zeros((nbos, nocc, nocc), dtype=types[float])
    .zeros 18 [2, 0, 0],
    -- 1391: x0 += einsum("ia,waj->wji", t1, lu11)
    .add 18 (.ein [(4, [0, 1]), (5, [2, 1, 3])] [2, 3, 0]) 1 1,
    -- 1392: x17 = np.zeros((nocc, nvir), dtype=types[float])
    .zeros 19 [0, 1],
    -- 1393: x17 += einsum("wia,wij->ja", u11, x0)
    .add 19 (.ein [(6, [0, 1, 2]), (18, [0, 1, 3])] [3, 2]) 1 1,
    -- 1394: rdm_eb_cre_oo = np.zeros((nbos, nocc, nocc), dtype=types[float])
    .zeros 20 [2, 0, 0],
    -- 1395: rdm_eb_cre_oo -= einsum("wij->wji", x0)
    .add 20 (.ein [(18, [0, 1, 2])] [0, 2, 1]) (-1) 1,
    -- 1396: rdm_eb_cre_ov = np.zeros((nbos, nocc, nvir), dtype=types[float])
    .zeros 21 [2, 0, 1],
    -- 1397: rdm_eb_cre_ov -= einsum("ia,wij->wja", t1, x0)
    .add 21 (.ein [(4, [0, 1]), (18, [2, 0, 3])] [2, 3, 1]) (-1) 1,
    -- 1398: del x0
    .del 18,
    -- 1399: x1 = np.zeros((nbos, nocc, nocc), dtype=types[float])
    .zeros 22 [2, 0, 0],
    -- 1400: x1 += einsum("ai,wja->wij", l1, u11)
    .add 22 (.ein [(7, [0, 1]), (6, [2, 3, 0])] [2, 1, 3]) 1 1,
    -- 1401: x14 = np.zeros((nbos, nocc, nocc), dtype=types[float])
    .zeros 23 [2, 0, 0],
    -- 1402: x14 += einsum("wij->wij", x1)
    .add 23 (.ein [(22, [0, 1, 2])] [0, 1, 2]) 1 1,
    -- 1403: rdm_eb_des_oo = np.zeros((nbos, nocc, nocc), dtype=types[float])
    .zeros 24 [2, 0, 0],
    -- 1404: rdm_eb_des_oo -= einsum("wij->wji", x1)
    .add 24 (.ein [(22, [0, 1, 2])] [0, 2, 1]) (-1) 1,
    -- 1405: del x1
    .del 22,
    -- 1406: x2 = np.zeros((nbos), dtype=types[float])
    .zeros 25 [2],
    -- 1407: x2 += einsum("ai,wia->w", l1, u11)
    .add 25 (.ein [(7, [0, 1]), (6, [2, 1, 0])] [2]) 1 1,
    -- 1408: rdm_eb_des_oo += einsum("w,ij->wji", x2, delta_oo)
    .add 24 (.ein [(25, [0]), (16, [1, 2])] [0, 2, 1]) 1 1,
    -- 1409: rdm_eb_des_ov = np.zeros((nbos, nocc, nvir), dtype=types[float])
    .zeros 26 [2, 0, 1],
    -- 1410: rdm_eb_des_ov += einsum("w,ia->wia", x2, t1)
    .add 26 (.ein [(25, [0]), (4, [1, 2])] [0, 1, 2]) 1 1,
    -- 1411: del x2
    .del 25,
    -- 1412: x3 = np.zeros((nbos, nocc, nvir), dtype=types[float])
    .zeros 27 [2, 0, 1],
    -- 1413: x3 -= einsum("wia,abji->wjb", u11, l2)
    .add 27 (.ein [(6, [0, 1, 2]), (8, [2, 3, 4, 1])] [0, 4, 3]) (-1) 1,
    -- 1414: x4 = np.zeros((nbos, nocc, nocc), dtype=types[float])
    .zeros 28 [2, 0, 0],
    -- 1415: x4 += einsum("ia,wja->wji", t1, x3)
    .add 28 (.ein [(4, [0, 1]), (27, [2, 3, 1])] [2, 3, 0]) 1 1,
    -- 1416: x14 += einsum("wij->wij", x4)
    .add 23 (.ein [(28, [0, 1, 2])] [0, 1, 2]) 1 1,
    -- 1417: rdm_eb_des_ov -= einsum("ia,wij->wja", t1, x14)
    .add 26 (.ein [(4, [0, 1]), (23, [2, 0, 3])] [2, 3, 1]) (-1) 1,
    -- 1418: del x14
    .del 23,
    -- 1419: rdm_eb_des_oo -= einsum("wij->wji", x4)
    .add 24 (.ein [(28, [0, 1, 2])] [0, 2, 1]) (-1) 1,
    -- 1420: del x4
    .del 28,
    -- 1421: rdm_eb_des_ov += einsum("wia,jiba->wjb", x3, t2)
    .add 26 (.ein [(27, [0, 1, 2]), (9, [3, 1, 4, 2])] [0, 3, 4]) 1 1,
    -- 1422: rdm_eb_des_vo = np.zeros((nbos, nvir, nocc), dtype=types[float])
    .zeros 29 [2, 1, 0],
    -- 1423: rdm_eb_des_vo += einsum("wia->wai", x3)
    .add 29 (.ein [(27, [0, 1, 2])] [0, 2, 1]) 1 1,
    -- 1424: rdm_eb_des_vv = np.zeros((nbos, nvir, nvir), dtype=types[float])
    .zeros 30 [2, 1, 1],
    -- 1425: rdm_eb_des_vv += einsum("ia,wib->wba", t1, x3)
    .add 30 (.ein [(4, [0, 1]), (27, [2, 0, 3])] [2, 3, 1]) 1 1,
    -- 1426: del x3
    .del 27,
    -- 1427: x5 = np.zeros((nocc, nocc), dtype=types[float])
    .zeros 31 [0, 0],
    -- 1428: x5 += einsum("ai,ja->ij", l1, t1)
    .add 31 (.ein [(7, [0, 1]), (4, [2, 0])] [1, 2]) 1 1,
    -- 1429: x8 = np.zeros((nocc, nocc), dtype=types[float])
    .zeros 32 [0, 0],
    -- 1430: x8 += einsum("ij->ij", x5)
    .add 32 (.ein [(31, [0, 1])] [0, 1]) 1 1,
    -- 1431: x13 = np.zeros((nocc, nocc), dtype=types[float])
    .zeros 33 [0, 0],
    -- 1432: x13 += einsum("ij->ij", x5)
    .add 33 (.ein [(31, [0, 1])] [0, 1]) 1 1,
    -- 1433: x16 = np.zeros((nocc, nocc), dtype=types[float])
    .zeros 34 [0, 0],
    -- 1434: x16 += einsum("ij->ij", x5) * 1.9999999999999987
    .add 34 (.ein [(31, [0, 1])] [0, 1]) 2 1,
    -- 1435: del x5
    .del 31,
    -- 1436: x6 = np.zeros((nocc, nocc), dtype=types[float])
    .zeros 35 [0, 0],
    -- 1437: x6 += einsum("wai,wja->ij", lu11, u11)
    .add 35 (.ein [(5, [0, 1, 2]), (6, [0, 3, 1])] [2, 3]) 1 1,
    -- 1438: x8 += einsum("ij->ij", x6)
    .add 32 (.ein [(35, [0, 1])] [0, 1]) 1 1,
    -- 1439: x13 += einsum("ij->ij", x6)
    .add 33 (.ein [(35, [0, 1])] [0, 1]) 1 1,
    -- 1440: x16 += einsum("ij->ij", x6) * 1.9999999999999987
    .add 34 (.ein [(35, [0, 1])] [0, 1]) 2 1,
    -- 1441: del x6
    .del 35,
    -- 1442: x7 = np.zeros((nocc, nocc), dtype=types[float])
    .zeros 36 [0, 0],
    -- 1443: x7 += einsum("abij,kjab->ik", l2, t2)
    .add 36 (.ein [(8, [0, 1, 2, 3]), (9, [4, 3, 0, 1])] [2, 4]) 1 1,
    -- 1444: x8 += einsum("ij->ij", x7) * 0.5
    .add 32 (.ein [(36, [0, 1])] [0, 1]) 1 2,
    -- 1445: x13 += einsum("ij->ij", x7) * 0.5
    .add 33 (.ein [(36, [0, 1])] [0, 1]) 1 2,
    -- 1446: rdm_eb_des_ov += einsum("ij,wia->wja", x13, u11) * -1
    .add 26 (.ein [(33, [0, 1]), (6, [2, 0, 3])] [2, 1, 3]) (-1) 1,
    -- 1447: del x13
    .del 33,
    -- 1448: x16 += einsum("ij->ij", x7)
    .add 34 (.ein [(36, [0, 1])] [0, 1]) 1 1,
    -- 1449: del x7
    .del 36,
    -- 1450: x17 += einsum("ia,ij->ja", t1, x16) * 0.5000000000000003
    .add 19 (.ein [(4, [0, 1]), (34, [0, 2])] [2, 1]) 1 2,
    -- 1451: del x16
    .del 34,
    -- 1452: x8 += einsum("ij->ji", delta_oo) * -1
    .add 32 (.ein [(16, [0, 1])] [1, 0]) (-1) 1,
    -- 1453: rdm_eb_des_oo += einsum("w,ij->wji", s1, x8) * -1
    .add 24 (.ein [(10, [0]), (32, [1, 2])] [0, 2, 1]) (-1) 1,
    -- 1454: del x8
    .del 32,
    -- 1455: x9 = np.zeros((nbos, nbos), dtype=types[float])
    .zeros 37 [2, 2],
    -- 1456: x9 += einsum("wai,xia->wx", lu11, u11)
    .add 37 (.ein [(5, [0, 1, 2]), (6, [3, 2, 1])] [0, 3]) 1 1,
    -- 1457: rdm_eb_des_ov += einsum("wx,wia->xia", x9, u11)
    .add 26 (.ein [(37, [0, 1]), (6, [0, 2, 3])] [1, 2, 3]) 1 1,
    -- 1458: del x9
    .del 37,
    -- 1459: x10 = np.zeros((nvir, nvir), dtype=types[float])
    .zeros 38 [1, 1],
    -- 1460: x10 += einsum("wai,wib->ab", lu11, u11)
    .add 38 (.ein [(5, [0, 1, 2]), (6, [0, 2, 3])] [1, 3]) 1 1,
    -- 1461: x12 = np.zeros((nvir, nvir), dtype=types[float])
    .zeros 39 [1, 1],
    -- 1462: x12 += einsum("ab->ab", x10) * 2
    .add 39 (.ein [(38, [0, 1])] [0, 1]) 2 1,
    -- 1463: x18 = np.zeros((nvir, nvir), dtype=types[float])
    .zeros 40 [1, 1],
    -- 1464: x18 += einsum("ab->ab", x10)
    .add 40 (.ein [(38, [0, 1])] [0, 1]) 1 1,
    -- 1465: del x10
    .del 38,
    -- 1466: x11 = np.zeros((nvir, nvir), dtype=types[float])
    .zeros 41 [1, 1],
    -- 1467: x11 -= einsum("abij,ijca->bc", l2, t2)
    .add 41 (.ein [(8, [0, 1, 2, 3]), (9, [2, 3, 4, 0])] [1, 4]) (-1) 1,
    -- 1468: x12 += einsum("ab->ab", x11)
    .add 39 (.ein [(41, [0, 1])] [0, 1]) 1 1,
    -- 1469: rdm_eb_des_ov += einsum("ab,wia->wib", x12, u11) * -0.5
    .add 26 (.ein [(39, [0, 1]), (6, [2, 3, 0])] [2, 3, 1]) (-1) 2,
    -- 1470: del x12
    .del 39,
    -- 1471: x18 += einsum("ab->ab", x11) * 0.5
    .add 40 (.ein [(41, [0, 1])] [0, 1]) 1 2,
    -- 1472: del x11
    .del 41,
    -- 1473: x15 = np.zeros((nocc, nocc, nocc, nvir), dtype=types[float])
    .zeros 42 [0, 0, 0, 1],
    -- 1474: x15 += einsum("ia,bajk->jkib", t1, l2)
    .add 42 (.ein [(4, [0, 1]), (8, [2, 1, 3, 4])] [3, 4, 0, 2]) 1 1,
    -- 1475: x17 += einsum("ijab,ijkb->ka", t2, x15) * -0.5000000000000003
    .add 19 (.ein [(9, [0, 1, 2, 3]), (42, [0, 1, 4, 3])] [4, 2]) (-1) 2,
    -- 1476: del x15
    .del 42,
    -- 1477: x17 += einsum("ia->ia", t1) * -1
    .add 19 (.ein [(4, [0, 1])] [0, 1]) (-1) 1,
    -- 1478: x17 += einsum("w,wia->ia", ls1, u11) * -1
    .add 19 (.ein [(11, [0]), (6, [0, 1, 2])] [1, 2]) (-1) 1,
    -- 1479: x17 += einsum("ai,jiba->jb", l1, t2) * -1
    .add 19 (.ein [(7, [0, 1]), (9, [2, 1, 3, 0])] [2, 3]) (-1) 1,
    -- 1480: rdm_eb_des_ov += einsum("w,ia->wia", s1, x17) * -1
    .add 26 (.ein [(10, [0]), (19, [1, 2])] [0, 1, 2]) (-1) 1,
    -- 1481: del x17
    .del 19,
    -- 1482: x18 += einsum("ai,ib->ab", l1, t1)
    .add 40 (.ein [(7, [0, 1]), (4, [1, 2])] [0, 2]) 1 1,
    -- 1483: rdm_eb_des_vv += einsum("w,ab->wab", s1, x18)
    .add 30 (.ein [(10, [0]), (40, [1, 2])] [0, 1, 2]) 1 1,
    -- 1484: del x18
    .del 40,
    -- 1485: rdm_eb_cre_oo += einsum("w,ij->wji", ls1, delta_oo)
    .add 20 (.ein [(11, [0]), (16, [1, 2])] [0, 2, 1]) 1 1,
    -- 1486: rdm_eb_cre_ov += einsum("w,ia->wia", ls1, t1)
    .add 21 (.ein [(11, [0]), (4, [1, 2])] [0, 1, 2]) 1 1,
    -- 1487: rdm_eb_cre_ov += einsum("wai,jiba->wjb", lu11, t2)
    .add 21 (.ein [(5, [0, 1, 2]), (9, [3, 2, 4, 1])] [0, 3, 4]) 1 1,
    -- 1488: rdm_eb_cre_vo = np.zeros((nbos, nvir, nocc), dtype=types[float])
    .zeros 43 [2, 1, 0],
    -- 1489: rdm_eb_cre_vo += einsum("wai->wai", lu11)
    .add 43 (.ein [(5, [0, 1, 2])] [0, 1, 2]) 1 1,
    -- 1490: rdm_eb_cre_vv = np.zeros((nbos, nvir, nvir), dtype=types[float])
    .zeros 44 [2, 1, 1],
    -- 1491: rdm_eb_cre_vv += einsum("ia,wbi->wba", t1, lu11)
    .add 44 (.ein [(4, [0, 1]), (5, [2, 3, 0])] [2, 3, 1]) 1 1,
    -- 1492: rdm_eb_des_ov += einsum("wia->wia", u11)
    .add 26 (.ein [(6, [0, 1, 2])] [0, 1, 2]) 1 1,
    -- 1493: rdm_eb_des_vo += einsum("w,ai->wai", s1, l1)
    .add 29 (.ein [(10, [0]), (7, [1, 2])] [0, 1, 2]) 1 1,
    -- 1494: rdm_eb_des_vv += einsum("ai,wib->wab", l1, u11)
    .add 30 (.ein [(7, [0, 1]), (6, [2, 1, 3])] [2, 0, 3]) 1 1
  ]
  ret := [(chars! "rdm_eb.0.oo", 20), (chars! "rdm_eb.0.ov", 21), (chars! "rdm_eb.0.vo", 43), (chars! "rdm_eb.0.vv", 44), (chars! "rdm_eb.1.oo", 24), (chars! "rdm_eb.1.ov", 26), (chars! "rdm_eb.1.vo", 29), (chars! "rdm_eb.1.vv", 30)]

end Ebcc.Gen.GCCSD_S_1_1
