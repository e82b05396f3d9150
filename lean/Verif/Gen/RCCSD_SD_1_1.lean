import Verif.Model.GenCode
/-!
Functions of `ebcc/codegen/RCCSD_SD_1_1.py`, written by `tools/gencode.py`.  Comments give the
number and the text of the line of each statement.
-/

set_option maxRecDepth 100000

namespace Ebcc.Gen.RCCSD_SD_1_1

/-- codegen/RCCSD_SD_1_1.py:7-27 `energy`. -/
def energy : GenFun where
  args := [chars! "v.ovov", chars! "t1", chars! "t2", chars! "f.ov", chars! "u11", chars! "s1", chars! "g.bov", chars! "G"]
  body := [
    -- 9: x0 = np.zeros((nocc, nocc, nvir, nvir), dtype=types[float])
    .zeros 8 [0, 0, 1, 1],
    -- 10: x0 += einsum("iajb->jiab", v.ovov) * -0.5
    .add 8 (.ein [(0, [0, 1, 2, 3])] [2, 0, 1, 3]) (-1) 2,
    -- 11: x0 += einsum("iajb->jiba", v.ovov)
    .add 8 (.ein [(0, [0, 1, 2, 3])] [2, 0, 3, 1]) 1 1,
    -- 12: x1 = np.zeros((nocc, nvir), dtype=types[float])
    .zeros 9 [0, 1],
    -- 13: x1 += einsum("ia,ijab->jb", t1, x0)
    .add 9 (.ein [(1, [0, 1]), (8, [0, 2, 1, 3])] [2, 3]) 1 1,
    -- 14: e_cc = 0
    .zeros 10 [],
    -- 15: e_cc += einsum("ijab,ijab->", t2, x0) * 2
    .add 10 (.ein [(2, [0, 1, 2, 3]), (8, [0, 1, 2, 3])] []) 2 1,
    -- 16: del x0
    .del 8,
    -- 17: x1 += einsum("ia->ia", f.ov)
    .add 9 (.ein [(3, [0, 1])] [0, 1]) 1 1,
    -- 18: e_cc += einsum("ia,ia->", t1, x1) * 2
    .add 10 (.ein [(1, [0, 1]), (9, [0, 1])] []) 2 1,
    -- 19: del x1
    .del 9,
    -- 20: x2 = np.zeros((nbos, nocc, nvir), dtype=types[float])
    .zeros 11 [2, 0, 1],
    -- 21: x2 += einsum("wia->wia", u11)
    .add 11 (.ein [(4, [0, 1, 2])] [0, 1, 2]) 1 1,
    -- 22: x2 += einsum("w,ia->wia", s1, t1)
    .add 11 (.ein [(5, [0]), (1, [1, 2])] [0, 1, 2]) 1 1,
    -- 23: e_cc += einsum("wia,wia->", g.bov, x2) * 2
    .add 10 (.ein [(6, [0, 1, 2]), (11, [0, 1, 2])] []) 2 1,
    -- 24: del x2
    .del 11,
    -- 25: e_cc += einsum("w,w->", G, s1)
    .add 10 (.ein [(7, [0]), (5, [0])] []) 1 1
  ]
  ret := [(chars! "e_cc", 10)]

/-- codegen/RCCSD_SD_1_1.py:29-499 `update_amps`. -/
def update_amps : GenFun where
  args := [chars! "g.boo", chars! "g.bvo", chars! "g.bov", chars! "g.bvv", chars! "t1", chars! "v.ovov", chars! "t2", chars! "v.ooov", chars! "v.ovvv", chars! "s1", chars! "u11", chars! "f.ov", chars! "v.ovvo", chars! "v.oovv", chars! "f.oo", chars! "f.vv", chars! "G", chars! "s2", chars! "v.vvvv", chars! "v.vovv", chars! "v.oooo", chars! "v.oovo", chars! "w", chars! "f.vo", chars! "v.vovo"]
  body := [
    -- 31: gc = Namespace(
    .set 25 (.tr 0 [0, 2, 1]) 1 1,
    .set 26 (.tr 1 [0, 2, 1]) 1 1,
    .set 27 (.tr 2 [0, 2, 1]) 1 1,
    .set 28 (.tr 3 [0, 2, 1]) 1 1,
    -- 39: x0 = np.zeros((nocc, nocc, nocc, nvir), dtype=types[float])
    .zeros 29 [0, 0, 0, 1],
    -- 40: x0 += einsum("ia,jbka->ijkb", t1, v.ovov)
    .add 29 (.ein [(4, [0, 1]), (5, [2, 3, 4, 1])] [0, 2, 4, 3]) 1 1,
    -- 41: x1 = np.zeros((nocc, nocc, nocc, nvir), dtype=types[float])
    .zeros 30 [0, 0, 0, 1],
    -- 42: x1 += einsum("ijka->ijka", x0) * 2
    .add 30 (.ein [(29, [0, 1, 2, 3])] [0, 1, 2, 3]) 2 1,
    -- 43: x1 += einsum("ijka->ikja", x0) * -1
    .add 30 (.ein [(29, [0, 1, 2, 3])] [0, 2, 1, 3]) (-1) 1,
    -- 44: x34 = np.zeros((nocc, nocc, nocc, nvir), dtype=types[float])
    .zeros 31 [0, 0, 0, 1],
    -- 45: x34 += einsum("ijab,kjla->kilb", t2, x0)
    .add 31 (.ein [(6, [0, 1, 2, 3]), (29, [4, 1, 5, 2])] [4, 0, 5, 3]) 1 1,
    -- 46: x40 = np.zeros((nocc, nocc, nocc, nvir), dtype=types[float])
    .zeros 32 [0, 0, 0, 1],
    -- 47: x40 -= einsum("ijka->ikja", x34)
    .add 32 (.ein [(31, [0, 1, 2, 3])] [0, 2, 1, 3]) (-1) 1,
    -- 48: del x34
    .del 31,
    -- 49: x35 = np.zeros((nocc, nocc, nocc, nvir), dtype=types[float])
    .zeros 33 [0, 0, 0, 1],
    -- 50: x35 -= einsum("ijka->ijka", x0)
    .add 33 (.ein [(29, [0, 1, 2, 3])] [0, 1, 2, 3]) (-1) 1,
    -- 51: x35 += einsum("ijka->ikja", x0) * 2
    .add 33 (.ein [(29, [0, 1, 2, 3])] [0, 2, 1, 3]) 2 1,
    -- 52: x36 = np.zeros((nocc, nocc, nocc, nvir), dtype=types[float])
    .zeros 34 [0, 0, 0, 1],
    -- 53: x36 += einsum("ijab,klia->jklb", t2, x35)
    .add 34 (.ein [(6, [0, 1, 2, 3]), (33, [4, 5, 0, 2])] [1, 4, 5, 3]) 1 1,
    -- 54: del x35
    .del 33,
    -- 55: x40 += einsum("ijka->jkia", x36)
    .add 32 (.ein [(34, [0, 1, 2, 3])] [1, 2, 0, 3]) 1 1,
    -- 56: del x36
    .del 34,
    -- 57: x64 = np.zeros((nocc, nocc, nocc, nvir), dtype=types[float])
    .zeros 35 [0, 0, 0, 1],
    -- 58: x64 += einsum("ijab,klja->kilb", t2, x0)
    .add 35 (.ein [(6, [0, 1, 2, 3]), (29, [4, 5, 1, 2])] [4, 0, 5, 3]) 1 1,
    -- 59: x67 = np.zeros((nocc, nocc, nocc, nvir), dtype=types[float])
    .zeros 36 [0, 0, 0, 1],
    -- 60: x67 -= einsum("ijka->kija", x64)
    .add 36 (.ein [(35, [0, 1, 2, 3])] [2, 0, 1, 3]) (-1) 1,
    -- 61: del x64
    .del 35,
    -- 62: x86 = np.zeros((nocc, nocc, nocc, nocc), dtype=types[float])
    .zeros 37 [0, 0, 0, 0],
    -- 63: x86 += einsum("ia,jkla->jilk", t1, x0)
    .add 37 (.ein [(4, [0, 1]), (29, [2, 3, 4, 1])] [2, 0, 4, 3]) 1 1,
    -- 64: del x0
    .del 29,
    -- 65: x87 = np.zeros((nocc, nocc, nocc, nocc), dtype=types[float])
    .zeros 38 [0, 0, 0, 0],
    -- 66: x87 += einsum("ijkl->lkji", x86)
    .add 38 (.ein [(37, [0, 1, 2, 3])] [3, 2, 1, 0]) 1 1,
    -- 67: x88 = np.zeros((nocc, nocc, nocc, nocc), dtype=types[float])
    .zeros 39 [0, 0, 0, 0],
    -- 68: x88 += einsum("ijkl->lkji", x86)
    .add 39 (.ein [(37, [0, 1, 2, 3])] [3, 2, 1, 0]) 1 1,
    -- 69: del x86
    .del 37,
    -- 70: x1 += einsum("ijka->jika", v.ooov) * -1
    .add 30 (.ein [(7, [0, 1, 2, 3])] [1, 0, 2, 3]) (-1) 1,
    -- 71: x1 += einsum("ijka->jkia", v.ooov) * 2
    .add 30 (.ein [(7, [0, 1, 2, 3])] [1, 2, 0, 3]) 2 1,
    -- 72: t1new = np.zeros((nocc, nvir), dtype=types[float])
    .zeros 40 [0, 1],
    -- 73: t1new += einsum("ijab,kjib->ka", t2, x1) * -1
    .add 40 (.ein [(6, [0, 1, 2, 3]), (30, [4, 1, 0, 3])] [4, 2]) (-1) 1,
    -- 74: del x1
    .del 30,
    -- 75: x2 = np.zeros((nocc, nvir, nvir, nvir), dtype=types[float])
    .zeros 41 [0, 1, 1, 1],
    -- 76: x2 += einsum("iabc->ibac", v.ovvv) * -0.5
    .add 41 (.ein [(8, [0, 1, 2, 3])] [0, 2, 1, 3]) (-1) 2,
    -- 77: x2 += einsum("iabc->ibca", v.ovvv)
    .add 41 (.ein [(8, [0, 1, 2, 3])] [0, 2, 3, 1]) 1 1,
    -- 78: t1new += einsum("ijab,icba->jc", t2, x2) * 2
    .add 40 (.ein [(6, [0, 1, 2, 3]), (41, [0, 4, 3, 2])] [1, 4]) 2 1,
    -- 79: del x2
    .del 41,
    -- 80: x3 = np.zeros((nocc, nvir), dtype=types[float])
    .zeros 42 [0, 1],
    -- 81: x3 += einsum("w,wia->ia", s1, g.bov)
    .add 42 (.ein [(9, [0]), (2, [0, 1, 2])] [1, 2]) 1 1,
    -- 82: x6 = np.zeros((nocc, nvir), dtype=types[float])
    .zeros 43 [0, 1],
    -- 83: x6 += einsum("ia->ia", x3)
    .add 43 (.ein [(42, [0, 1])] [0, 1]) 1 1,
    -- 84: x18 = np.zeros((nocc, nvir), dtype=types[float])
    .zeros 44 [0, 1],
    -- 85: x18 += einsum("ia->ia", x3) * 0.5
    .add 44 (.ein [(42, [0, 1])] [0, 1]) 1 2,
    -- 86: x104 = np.zeros((nocc, nvir), dtype=types[float])
    .zeros 45 [0, 1],
    -- 87: x104 += einsum("ia->ia", x3)
    .add 45 (.ein [(42, [0, 1])] [0, 1]) 1 1,
    -- 88: del x3
    .del 42,
    -- 89: x4 = np.zeros((nocc, nocc, nvir, nvir), dtype=types[float])
    .zeros 46 [0, 0, 1, 1],
    -- 90: x4 += einsum("iajb->jiab", v.ovov) * 2
    .add 46 (.ein [(5, [0, 1, 2, 3])] [2, 0, 1, 3]) 2 1,
    -- 91: x4 -= einsum("iajb->jiba", v.ovov)
    .add 46 (.ein [(5, [0, 1, 2, 3])] [2, 0, 3, 1]) (-1) 1,
    -- 92: x5 = np.zeros((nocc, nvir), dtype=types[float])
    .zeros 47 [0, 1],
    -- 93: x5 += einsum("ia,ijba->jb", t1, x4)
    .add 47 (.ein [(4, [0, 1]), (46, [0, 2, 3, 1])] [2, 3]) 1 1,
    -- 94: x6 += einsum("ia->ia", x5)
    .add 43 (.ein [(47, [0, 1])] [0, 1]) 1 1,
    -- 95: del x5
    .del 47,
    -- 96: x97 = np.zeros((nbos, nocc, nvir), dtype=types[float])
    .zeros 48 [2, 0, 1],
    -- 97: x97 += einsum("wia,ijba->wjb", u11, x4)
    .add 48 (.ein [(10, [0, 1, 2]), (46, [1, 3, 4, 2])] [0, 3, 4]) 1 1,
    -- 98: del x4
    .del 46,
    -- 99: x99 = np.zeros((nbos, nocc, nvir), dtype=types[float])
    .zeros 49 [2, 0, 1],
    -- 100: x99 += einsum("wia->wia", x97)
    .add 49 (.ein [(48, [0, 1, 2])] [0, 1, 2]) 1 1,
    -- 101: s2new = np.zeros((nbos, nbos), dtype=types[float])
    .zeros 50 [2, 2],
    -- 102: s2new += einsum("wia,xia->xw", u11, x97) * 2
    .add 50 (.ein [(10, [0, 1, 2]), (48, [3, 1, 2])] [3, 0]) 2 1,
    -- 103: del x97
    .del 48,
    -- 104: x6 += einsum("ia->ia", f.ov)
    .add 43 (.ein [(11, [0, 1])] [0, 1]) 1 1,
    -- 105: x66 = np.zeros((nocc, nocc, nocc, nvir), dtype=types[float])
    .zeros 51 [0, 0, 0, 1],
    -- 106: x66 += einsum("ia,jkab->jkib", x6, t2)
    .add 51 (.ein [(43, [0, 1]), (6, [2, 3, 1, 4])] [2, 3, 0, 4]) 1 1,
    -- 107: x67 += einsum("ijka->kjia", x66)
    .add 36 (.ein [(51, [0, 1, 2, 3])] [2, 1, 0, 3]) 1 1,
    -- 108: del x66
    .del 51,
    -- 109: x69 = np.zeros((nocc, nocc), dtype=types[float])
    .zeros 52 [0, 0],
    -- 110: x69 += einsum("ia,ja->ij", t1, x6)
    .add 52 (.ein [(4, [0, 1]), (43, [2, 1])] [0, 2]) 1 1,
    -- 111: x70 = np.zeros((nocc, nocc), dtype=types[float])
    .zeros 53 [0, 0],
    -- 112: x70 += einsum("ij->ij", x69)
    .add 53 (.ein [(52, [0, 1])] [0, 1]) 1 1,
    -- 113: del x69
    .del 52,
    -- 114: s1new = np.zeros((nbos), dtype=types[float])
    .zeros 54 [2],
    -- 115: s1new += einsum("ia,wia->w", x6, u11) * 2
    .add 54 (.ein [(43, [0, 1]), (10, [2, 0, 1])] [2]) 2 1,
    -- 116: x7 = np.zeros((nocc, nocc, nvir, nvir), dtype=types[float])
    .zeros 55 [0, 0, 1, 1],
    -- 117: x7 += einsum("ijab->jiab", t2) * 2
    .add 55 (.ein [(6, [0, 1, 2, 3])] [1, 0, 2, 3]) 2 1,
    -- 118: x7 -= einsum("ijab->jiba", t2)
    .add 55 (.ein [(6, [0, 1, 2, 3])] [1, 0, 3, 2]) (-1) 1,
    -- 119: x46 = np.zeros((nbos, nocc, nvir), dtype=types[float])
    .zeros 56 [2, 0, 1],
    -- 120: x46 += einsum("wia,ijba->wjb", g.bov, x7)
    .add 56 (.ein [(2, [0, 1, 2]), (55, [1, 3, 4, 2])] [0, 3, 4]) 1 1,
    -- 121: x48 = np.zeros((nbos, nocc, nvir), dtype=types[float])
    .zeros 57 [2, 0, 1],
    -- 122: x48 += einsum("wia->wia", x46)
    .add 57 (.ein [(56, [0, 1, 2])] [0, 1, 2]) 1 1,
    -- 123: del x46
    .del 56,
    -- 124: t1new += einsum("ia,ijba->jb", x6, x7)
    .add 40 (.ein [(43, [0, 1]), (55, [0, 2, 3, 1])] [2, 3]) 1 1,
    -- 125: del x6
    .del 43,
    -- 126: x8 = np.zeros((nocc, nocc, nvir, nvir), dtype=types[float])
    .zeros 58 [0, 0, 1, 1],
    -- 127: x8 += einsum("iabj->ijba", v.ovvo) * 2
    .add 58 (.ein [(12, [0, 1, 2, 3])] [0, 3, 2, 1]) 2 1,
    -- 128: x8 -= einsum("ijab->ijab", v.oovv)
    .add 58 (.ein [(13, [0, 1, 2, 3])] [0, 1, 2, 3]) (-1) 1,
    -- 129: t1new += einsum("ia,ijba->jb", t1, x8)
    .add 40 (.ein [(4, [0, 1]), (58, [0, 2, 3, 1])] [2, 3]) 1 1,
    -- 130: u11new = np.zeros((nbos, nocc, nvir), dtype=types[float])
    .zeros 59 [2, 0, 1],
    -- 131: u11new += einsum("wia,ijba->wjb", u11, x8)
    .add 59 (.ein [(10, [0, 1, 2]), (58, [1, 3, 4, 2])] [0, 3, 4]) 1 1,
    -- 132: del x8
    .del 58,
    -- 133: x9 = np.zeros((nbos, nocc, nocc), dtype=types[float])
    .zeros 60 [2, 0, 0],
    -- 134: x9 += einsum("ia,wja->wji", t1, g.bov)
    .add 60 (.ein [(4, [0, 1]), (2, [2, 3, 1])] [2, 3, 0]) 1 1,
    -- 135: x10 = np.zeros((nbos, nocc, nocc), dtype=types[float])
    .zeros 61 [2, 0, 0],
    -- 136: x10 += einsum("wij->wij", x9)
    .add 61 (.ein [(60, [0, 1, 2])] [0, 1, 2]) 1 1,
    -- 137: del x9
    .del 60,
    -- 138: x10 += einsum("wij->wij", g.boo)
    .add 61 (.ein [(0, [0, 1, 2])] [0, 1, 2]) 1 1,
    -- 139: x47 = np.zeros((nbos, nocc, nvir), dtype=types[float])
    .zeros 62 [2, 0, 1],
    -- 140: x47 += einsum("ia,wij->wja", t1, x10)
    .add 62 (.ein [(4, [0, 1]), (61, [2, 0, 3])] [2, 3, 1]) 1 1,
    -- 141: x48 -= einsum("wia->wia", x47)
    .add 57 (.ein [(62, [0, 1, 2])] [0, 1, 2]) (-1) 1,
    -- 142: del x47
    .del 62,
    -- 143: t1new -= einsum("wia,wij->ja", u11, x10)
    .add 40 (.ein [(10, [0, 1, 2]), (61, [0, 1, 3])] [3, 2]) (-1) 1,
    -- 144: del x10
    .del 61,
    -- 145: x11 = np.zeros((nocc, nocc), dtype=types[float])
    .zeros 63 [0, 0],
    -- 146: x11 += einsum("w,wij->ij", s1, g.boo)
    .add 63 (.ein [(9, [0]), (0, [0, 1, 2])] [1, 2]) 1 1,
    -- 147: x20 = np.zeros((nocc, nocc), dtype=types[float])
    .zeros 64 [0, 0],
    -- 148: x20 += einsum("ij->ij", x11)
    .add 64 (.ein [(63, [0, 1])] [0, 1]) 1 1,
    -- 149: x70 += einsum("ij->ji", x11)
    .add 53 (.ein [(63, [0, 1])] [1, 0]) 1 1,
    -- 150: del x11
    .del 63,
    -- 151: x12 = np.zeros((nocc, nocc), dtype=types[float])
    .zeros 65 [0, 0],
    -- 152: x12 += einsum("wia,wja->ij", g.bov, u11)
    .add 65 (.ein [(2, [0, 1, 2]), (10, [0, 3, 2])] [1, 3]) 1 1,
    -- 153: x20 += einsum("ij->ij", x12)
    .add 64 (.ein [(65, [0, 1])] [0, 1]) 1 1,
    -- 154: x52 = np.zeros((nocc, nocc), dtype=types[float])
    .zeros 66 [0, 0],
    -- 155: x52 += einsum("ij->ij", x12)
    .add 66 (.ein [(65, [0, 1])] [0, 1]) 1 1,
    -- 156: del x12
    .del 65,
    -- 157: x13 = np.zeros((nocc, nocc, nvir, nvir), dtype=types[float])
    .zeros 67 [0, 0, 1, 1],
    -- 158: x13 += einsum("iajb->jiab", v.ovov)
    .add 67 (.ein [(5, [0, 1, 2, 3])] [2, 0, 1, 3]) 1 1,
    -- 159: x13 += einsum("iajb->jiba", v.ovov) * -0.5
    .add 67 (.ein [(5, [0, 1, 2, 3])] [2, 0, 3, 1]) (-1) 2,
    -- 160: x14 = np.zeros((nocc, nocc), dtype=types[float])
    .zeros 68 [0, 0],
    -- 161: x14 += einsum("ijab,ikba->jk", t2, x13) * 2
    .add 68 (.ein [(6, [0, 1, 2, 3]), (67, [0, 4, 3, 2])] [1, 4]) 2 1,
    -- 162: x20 += einsum("ij->ji", x14)
    .add 64 (.ein [(68, [0, 1])] [1, 0]) 1 1,
    -- 163: del x14
    .del 68,
    -- 164: x17 = np.zeros((nocc, nvir), dtype=types[float])
    .zeros 69 [0, 1],
    -- 165: x17 += einsum("ia,ijba->jb", t1, x13)
    .add 69 (.ein [(4, [0, 1]), (67, [0, 2, 3, 1])] [2, 3]) 1 1,
    -- 166: x18 += einsum("ia->ia", x17)
    .add 44 (.ein [(69, [0, 1])] [0, 1]) 1 1,
    -- 167: del x17
    .del 69,
    -- 168: x78 = np.zeros((nvir, nvir), dtype=types[float])
    .zeros 70 [1, 1],
    -- 169: x78 += einsum("ijab,ijbc->ac", t2, x13)
    .add 70 (.ein [(6, [0, 1, 2, 3]), (67, [0, 1, 3, 4])] [2, 4]) 1 1,
    -- 170: x79 = np.zeros((nocc, nocc, nvir, nvir), dtype=types[float])
    .zeros 71 [0, 0, 1, 1],
    -- 171: x79 += einsum("ab,ijbc->ijca", x78, t2) * 2
    .add 71 (.ein [(70, [0, 1]), (6, [2, 3, 1, 4])] [2, 3, 4, 0]) 2 1,
    -- 172: del x78
    .del 70,
    -- 173: x83 = np.zeros((nocc, nocc, nvir, nvir), dtype=types[float])
    .zeros 72 [0, 0, 1, 1],
    -- 174: x83 += einsum("ijab->jiab", x79)
    .add 72 (.ein [(71, [0, 1, 2, 3])] [1, 0, 2, 3]) 1 1,
    -- 175: del x79
    .del 71,
    -- 176: x102 = np.zeros((nocc, nvir), dtype=types[float])
    .zeros 73 [0, 1],
    -- 177: x102 += einsum("ia,ijba->jb", t1, x13) * 2
    .add 73 (.ein [(4, [0, 1]), (67, [0, 2, 3, 1])] [2, 3]) 2 1,
    -- 178: del x13
    .del 67,
    -- 179: x103 = np.zeros((nvir, nvir), dtype=types[float])
    .zeros 74 [1, 1],
    -- 180: x103 += einsum("ia,ib->ab", t1, x102) * -1
    .add 74 (.ein [(4, [0, 1]), (73, [0, 2])] [1, 2]) (-1) 1,
    -- 181: del x102
    .del 73,
    -- 182: x15 = np.zeros((nocc, nocc, nocc, nvir), dtype=types[float])
    .zeros 75 [0, 0, 0, 1],
    -- 183: x15 += einsum("ijka->ikja", v.ooov)
    .add 75 (.ein [(7, [0, 1, 2, 3])] [0, 2, 1, 3]) 1 1,
    -- 184: x15 += einsum("ijka->kija", v.ooov) * -0.5
    .add 75 (.ein [(7, [0, 1, 2, 3])] [2, 0, 1, 3]) (-1) 2,
    -- 185: x16 = np.zeros((nocc, nocc), dtype=types[float])
    .zeros 76 [0, 0],
    -- 186: x16 += einsum("ia,jika->jk", t1, x15) * 2
    .add 76 (.ein [(4, [0, 1]), (75, [2, 0, 3, 1])] [2, 3]) 2 1,
    -- 187: del x15
    .del 75,
    -- 188: x20 += einsum("ij->ij", x16)
    .add 64 (.ein [(76, [0, 1])] [0, 1]) 1 1,
    -- 189: del x16
    .del 76,
    -- 190: x18 += einsum("ia->ia", f.ov) * 0.5
    .add 44 (.ein [(11, [0, 1])] [0, 1]) 1 2,
    -- 191: x19 = np.zeros((nocc, nocc), dtype=types[float])
    .zeros 77 [0, 0],
    -- 192: x19 += einsum("ia,ja->ij", t1, x18) * 2
    .add 77 (.ein [(4, [0, 1]), (44, [2, 1])] [0, 2]) 2 1,
    -- 193: del x18
    .del 44,
    -- 194: x20 += einsum("ij->ji", x19)
    .add 64 (.ein [(77, [0, 1])] [1, 0]) 1 1,
    -- 195: del x19
    .del 77,
    -- 196: x20 += einsum("ij->ij", f.oo)
    .add 64 (.ein [(14, [0, 1])] [0, 1]) 1 1,
    -- 197: t1new += einsum("ia,ij->ja", t1, x20) * -1
    .add 40 (.ein [(4, [0, 1]), (64, [0, 2])] [2, 1]) (-1) 1,
    -- 198: u11new += einsum("ij,wia->wja", x20, u11) * -1
    .add 59 (.ein [(64, [0, 1]), (10, [2, 0, 3])] [2, 1, 3]) (-1) 1,
    -- 199: del x20
    .del 64,
    -- 200: x21 = np.zeros((nvir, nvir), dtype=types[float])
    .zeros 78 [1, 1],
    -- 201: x21 += einsum("w,wab->ab", s1, g.bvv)
    .add 78 (.ein [(9, [0]), (3, [0, 1, 2])] [1, 2]) 1 1,
    -- 202: x24 = np.zeros((nvir, nvir), dtype=types[float])
    .zeros 79 [1, 1],
    -- 203: x24 += einsum("ab->ab", x21)
    .add 79 (.ein [(78, [0, 1])] [0, 1]) 1 1,
    -- 204: x72 = np.zeros((nvir, nvir), dtype=types[float])
    .zeros 80 [1, 1],
    -- 205: x72 += einsum("ab->ab", x21)
    .add 80 (.ein [(78, [0, 1])] [0, 1]) 1 1,
    -- 206: x103 += einsum("ab->ab", x21)
    .add 74 (.ein [(78, [0, 1])] [0, 1]) 1 1,
    -- 207: del x21
    .del 78,
    -- 208: x22 = np.zeros((nocc, nvir, nvir, nvir), dtype=types[float])
    .zeros 81 [0, 1, 1, 1],
    -- 209: x22 += einsum("iabc->ibac", v.ovvv) * 2
    .add 81 (.ein [(8, [0, 1, 2, 3])] [0, 2, 1, 3]) 2 1,
    -- 210: x22 -= einsum("iabc->ibca", v.ovvv)
    .add 81 (.ein [(8, [0, 1, 2, 3])] [0, 2, 3, 1]) (-1) 1,
    -- 211: x23 = np.zeros((nvir, nvir), dtype=types[float])
    .zeros 82 [1, 1],
    -- 212: x23 += einsum("ia,ibac->bc", t1, x22)
    .add 82 (.ein [(4, [0, 1]), (81, [0, 2, 1, 3])] [2, 3]) 1 1,
    -- 213: x24 += einsum("ab->ab", x23)
    .add 79 (.ein [(82, [0, 1])] [0, 1]) 1 1,
    -- 214: x43 = np.zeros((nvir, nvir), dtype=types[float])
    .zeros 83 [1, 1],
    -- 215: x43 -= einsum("ab->ab", x23)
    .add 83 (.ein [(82, [0, 1])] [0, 1]) (-1) 1,
    -- 216: del x23
    .del 82,
    -- 217: x106 = np.zeros((nbos, nvir, nvir), dtype=types[float])
    .zeros 84 [2, 1, 1],
    -- 218: x106 += einsum("wia,ibac->wbc", u11, x22)
    .add 84 (.ein [(10, [0, 1, 2]), (81, [1, 3, 2, 4])] [0, 3, 4]) 1 1,
    -- 219: del x22
    .del 81,
    -- 220: x24 += einsum("ab->ab", f.vv)
    .add 79 (.ein [(15, [0, 1])] [0, 1]) 1 1,
    -- 221: t1new += einsum("ia,ba->ib", t1, x24)
    .add 40 (.ein [(4, [0, 1]), (79, [2, 1])] [0, 2]) 1 1,
    -- 222: del x24
    .del 79,
    -- 223: x25 = np.zeros((nbos), dtype=types[float])
    .zeros 85 [2],
    -- 224: x25 += einsum("ia,wia->w", t1, g.bov)
    .add 85 (.ein [(4, [0, 1]), (2, [2, 0, 1])] [2]) 1 1,
    -- 225: x26 = np.zeros((nbos), dtype=types[float])
    .zeros 86 [2],
    -- 226: x26 += einsum("w->w", x25) * 2
    .add 86 (.ein [(85, [0])] [0]) 2 1,
    -- 227: del x25
    .del 85,
    -- 228: x26 += einsum("w->w", G)
    .add 86 (.ein [(16, [0])] [0]) 1 1,
    -- 229: t1new += einsum("w,wia->ia", x26, u11)
    .add 40 (.ein [(86, [0]), (10, [0, 1, 2])] [1, 2]) 1 1,
    -- 230: s1new += einsum("w,wx->x", x26, s2)
    .add 54 (.ein [(86, [0]), (17, [0, 1])] [1]) 1 1,
    -- 231: del x26
    .del 86,
    -- 232: x27 = np.zeros((nocc, nvir, nvir, nvir), dtype=types[float])
    .zeros 87 [0, 1, 1, 1],
    -- 233: x27 += einsum("ia,bcda->ibdc", t1, v.vvvv)
    .add 87 (.ein [(4, [0, 1]), (18, [2, 3, 4, 1])] [0, 2, 4, 3]) 1 1,
    -- 234: t2new = np.zeros((nocc, nocc, nvir, nvir), dtype=types[float])
    .zeros 88 [0, 0, 1, 1],
    -- 235: t2new += einsum("ia,jbca->ijbc", t1, x27)
    .add 88 (.ein [(4, [0, 1]), (87, [2, 3, 4, 1])] [0, 2, 3, 4]) 1 1,
    -- 236: del x27
    .del 87,
    -- 237: x28 = np.zeros((nocc, nocc, nvir, nvir), dtype=types[float])
    .zeros 89 [0, 0, 1, 1],
    -- 238: x28 += einsum("ia,jabc->ijbc", t1, v.ovvv)
    .add 89 (.ein [(4, [0, 1]), (8, [2, 1, 3, 4])] [0, 2, 3, 4]) 1 1,
    -- 239: x29 = np.zeros((nocc, nocc, nvir, nvir), dtype=types[float])
    .zeros 90 [0, 0, 1, 1],
    -- 240: x29 += einsum("ijab,kjca->kibc", t2, x28)
    .add 90 (.ein [(6, [0, 1, 2, 3]), (89, [4, 1, 5, 2])] [4, 0, 3, 5]) 1 1,
    -- 241: del x28
    .del 89,
    -- 242: x54 = np.zeros((nocc, nocc, nvir, nvir), dtype=types[float])
    .zeros 91 [0, 0, 1, 1],
    -- 243: x54 += einsum("ijab->ijab", x29)
    .add 91 (.ein [(90, [0, 1, 2, 3])] [0, 1, 2, 3]) 1 1,
    -- 244: del x29
    .del 90,
    -- 245: x30 = np.zeros((nocc, nocc, nvir, nvir), dtype=types[float])
    .zeros 92 [0, 0, 1, 1],
    -- 246: x30 -= einsum("iajb->jiab", v.ovov)
    .add 92 (.ein [(5, [0, 1, 2, 3])] [2, 0, 1, 3]) (-1) 1,
    -- 247: x30 += einsum("iajb->jiba", v.ovov) * 2
    .add 92 (.ein [(5, [0, 1, 2, 3])] [2, 0, 3, 1]) 2 1,
    -- 248: x31 = np.zeros((nocc, nocc, nvir, nvir), dtype=types[float])
    .zeros 93 [0, 0, 1, 1],
    -- 249: x31 += einsum("ijab,ikbc->jkac", t2, x30)
    .add 93 (.ein [(6, [0, 1, 2, 3]), (92, [0, 4, 3, 5])] [1, 4, 2, 5]) 1 1,
    -- 250: x32 = np.zeros((nocc, nocc, nvir, nvir), dtype=types[float])
    .zeros 94 [0, 0, 1, 1],
    -- 251: x32 += einsum("ijab,kica->jkbc", t2, x31)
    .add 94 (.ein [(6, [0, 1, 2, 3]), (93, [4, 0, 5, 2])] [1, 4, 3, 5]) 1 1,
    -- 252: del x31
    .del 93,
    -- 253: x54 += einsum("ijab->ijab", x32)
    .add 91 (.ein [(94, [0, 1, 2, 3])] [0, 1, 2, 3]) 1 1,
    -- 254: del x32
    .del 94,
    -- 255: x84 = np.zeros((nocc, nocc, nvir, nvir), dtype=types[float])
    .zeros 95 [0, 0, 1, 1],
    -- 256: x84 += einsum("ijab,ikac->jkbc", t2, x30) * 2
    .add 95 (.ein [(6, [0, 1, 2, 3]), (92, [0, 4, 2, 5])] [1, 4, 3, 5]) 2 1,
    -- 257: del x30
    .del 92,
    -- 258: x33 = np.zeros((nocc, nocc, nocc, nvir), dtype=types[float])
    .zeros 96 [0, 0, 0, 1],
    -- 259: x33 += einsum("ijab,jkla->ilkb", t2, v.ooov)
    .add 96 (.ein [(6, [0, 1, 2, 3]), (7, [1, 4, 5, 2])] [0, 5, 4, 3]) 1 1,
    -- 260: x40 -= einsum("ijka->ijka", x33)
    .add 32 (.ein [(96, [0, 1, 2, 3])] [0, 1, 2, 3]) (-1) 1,
    -- 261: del x33
    .del 96,
    -- 262: x37 = np.zeros((nocc, nocc, nvir, nvir), dtype=types[float])
    .zeros 97 [0, 0, 1, 1],
    -- 263: x37 += einsum("ia,jbca->ijcb", t1, v.ovvv)
    .add 97 (.ein [(4, [0, 1]), (8, [2, 3, 4, 1])] [0, 2, 4, 3]) 1 1,
    -- 264: x38 = np.zeros((nocc, nocc, nvir, nvir), dtype=types[float])
    .zeros 98 [0, 0, 1, 1],
    -- 265: x38 += einsum("ijab->jiab", x37)
    .add 98 (.ein [(97, [0, 1, 2, 3])] [1, 0, 2, 3]) 1 1,
    -- 266: x56 = np.zeros((nocc, nocc, nvir, nvir), dtype=types[float])
    .zeros 99 [0, 0, 1, 1],
    -- 267: x56 += einsum("ijab,kjca->kibc", t2, x37)
    .add 99 (.ein [(6, [0, 1, 2, 3]), (97, [4, 1, 5, 2])] [4, 0, 3, 5]) 1 1,
    -- 268: del x37
    .del 97,
    -- 269: x74 = np.zeros((nocc, nocc, nvir, nvir), dtype=types[float])
    .zeros 100 [0, 0, 1, 1],
    -- 270: x74 += einsum("ijab->ijab", x56)
    .add 100 (.ein [(99, [0, 1, 2, 3])] [0, 1, 2, 3]) 1 1,
    -- 271: del x56
    .del 99,
    -- 272: x38 += einsum("iabj->ijba", v.ovvo)
    .add 98 (.ein [(12, [0, 1, 2, 3])] [0, 3, 2, 1]) 1 1,
    -- 273: x39 = np.zeros((nocc, nocc, nocc, nvir), dtype=types[float])
    .zeros 101 [0, 0, 0, 1],
    -- 274: x39 += einsum("ia,jkba->ijkb", t1, x38)
    .add 101 (.ein [(4, [0, 1]), (98, [2, 3, 4, 1])] [0, 2, 3, 4]) 1 1,
    -- 275: del x38
    .del 98,
    -- 276: x40 += einsum("ijka->ijka", x39)
    .add 32 (.ein [(101, [0, 1, 2, 3])] [0, 1, 2, 3]) 1 1,
    -- 277: del x39
    .del 101,
    -- 278: x41 = np.zeros((nocc, nocc, nvir, nvir), dtype=types[float])
    .zeros 102 [0, 0, 1, 1],
    -- 279: x41 += einsum("ia,jikb->jkab", t1, x40)
    .add 102 (.ein [(4, [0, 1]), (32, [2, 0, 3, 4])] [2, 3, 1, 4]) 1 1,
    -- 280: del x40
    .del 32,
    -- 281: x54 += einsum("ijab->ijab", x41)
    .add 91 (.ein [(102, [0, 1, 2, 3])] [0, 1, 2, 3]) 1 1,
    -- 282: del x41
    .del 102,
    -- 283: x42 = np.zeros((nvir, nvir), dtype=types[float])
    .zeros 103 [1, 1],
    -- 284: x42 += einsum("wia,wib->ab", g.bov, u11)
    .add 103 (.ein [(2, [0, 1, 2]), (10, [0, 1, 3])] [2, 3]) 1 1,
    -- 285: x43 += einsum("ab->ba", x42)
    .add 83 (.ein [(103, [0, 1])] [1, 0]) 1 1,
    -- 286: x44 = np.zeros((nocc, nocc, nvir, nvir), dtype=types[float])
    .zeros 104 [0, 0, 1, 1],
    -- 287: x44 += einsum("ab,ijbc->ijca", x43, t2)
    .add 104 (.ein [(83, [0, 1]), (6, [2, 3, 1, 4])] [2, 3, 4, 0]) 1 1,
    -- 288: del x43
    .del 83,
    -- 289: x54 += einsum("ijab->jiab", x44)
    .add 91 (.ein [(104, [0, 1, 2, 3])] [1, 0, 2, 3]) 1 1,
    -- 290: del x44
    .del 104,
    -- 291: x103 += einsum("ab->ba", x42) * -1
    .add 74 (.ein [(103, [0, 1])] [1, 0]) (-1) 1,
    -- 292: del x42
    .del 103,
    -- 293: x45 = np.zeros((nbos, nocc, nvir), dtype=types[float])
    .zeros 105 [2, 0, 1],
    -- 294: x45 += einsum("ia,wba->wib", t1, g.bvv)
    .add 105 (.ein [(4, [0, 1]), (3, [2, 3, 1])] [2, 0, 3]) 1 1,
    -- 295: x48 += einsum("wia->wia", x45)
    .add 57 (.ein [(105, [0, 1, 2])] [0, 1, 2]) 1 1,
    -- 296: del x45
    .del 105,
    -- 297: x48 += einsum("wai->wia", g.bvo)
    .add 57 (.ein [(1, [0, 1, 2])] [0, 2, 1]) 1 1,
    -- 298: x49 = np.zeros((nocc, nocc, nvir, nvir), dtype=types[float])
    .zeros 106 [0, 0, 1, 1],
    -- 299: x49 += einsum("wia,wjb->ijab", u11, x48)
    .add 106 (.ein [(10, [0, 1, 2]), (57, [0, 3, 4])] [1, 3, 2, 4]) 1 1,
    -- 300: del x48
    .del 57,
    -- 301: x54 -= einsum("ijab->jiba", x49)
    .add 91 (.ein [(106, [0, 1, 2, 3])] [1, 0, 3, 2]) (-1) 1,
    -- 302: del x49
    .del 106,
    -- 303: x50 = np.zeros((nocc, nocc, nocc, nvir), dtype=types[float])
    .zeros 107 [0, 0, 0, 1],
    -- 304: x50 += einsum("ijka->ikja", v.ooov) * 2
    .add 107 (.ein [(7, [0, 1, 2, 3])] [0, 2, 1, 3]) 2 1,
    -- 305: x50 -= einsum("ijka->kija", v.ooov)
    .add 107 (.ein [(7, [0, 1, 2, 3])] [2, 0, 1, 3]) (-1) 1,
    -- 306: x51 = np.zeros((nocc, nocc), dtype=types[float])
    .zeros 108 [0, 0],
    -- 307: x51 += einsum("ia,jika->jk", t1, x50)
    .add 108 (.ein [(4, [0, 1]), (107, [2, 0, 3, 1])] [2, 3]) 1 1,
    -- 308: x52 += einsum("ij->ij", x51)
    .add 66 (.ein [(108, [0, 1])] [0, 1]) 1 1,
    -- 309: del x51
    .del 108,
    -- 310: x53 = np.zeros((nocc, nocc, nvir, nvir), dtype=types[float])
    .zeros 109 [0, 0, 1, 1],
    -- 311: x53 += einsum("ij,ikab->kjab", x52, t2)
    .add 109 (.ein [(66, [0, 1]), (6, [0, 2, 3, 4])] [2, 1, 3, 4]) 1 1,
    -- 312: del x52
    .del 66,
    -- 313: x54 += einsum("ijab->ijba", x53)
    .add 91 (.ein [(109, [0, 1, 2, 3])] [0, 1, 3, 2]) 1 1,
    -- 314: del x53
    .del 109,
    -- 315: t2new -= einsum("ijab->ijab", x54)
    .add 88 (.ein [(91, [0, 1, 2, 3])] [0, 1, 2, 3]) (-1) 1,
    -- 316: t2new -= einsum("ijab->jiba", x54)
    .add 88 (.ein [(91, [0, 1, 2, 3])] [1, 0, 3, 2]) (-1) 1,
    -- 317: del x54
    .del 91,
    -- 318: x65 = np.zeros((nocc, nocc, nocc, nvir), dtype=types[float])
    .zeros 110 [0, 0, 0, 1],
    -- 319: x65 += einsum("ijab,kila->jklb", t2, x50)
    .add 110 (.ein [(6, [0, 1, 2, 3]), (107, [4, 0, 5, 2])] [1, 4, 5, 3]) 1 1,
    -- 320: x67 += einsum("ijka->jika", x65)
    .add 36 (.ein [(110, [0, 1, 2, 3])] [1, 0, 2, 3]) 1 1,
    -- 321: del x65
    .del 110,
    -- 322: x105 = np.zeros((nbos, nocc, nocc), dtype=types[float])
    .zeros 111 [2, 0, 0],
    -- 323: x105 += einsum("wia,jika->wjk", u11, x50)
    .add 111 (.ein [(10, [0, 1, 2]), (107, [3, 1, 4, 2])] [0, 3, 4]) 1 1,
    -- 324: del x50
    .del 107,
    -- 325: x55 = np.zeros((nocc, nocc, nvir, nvir), dtype=types[float])
    .zeros 112 [0, 0, 1, 1],
    -- 326: x55 += einsum("ia,bjca->ijbc", t1, v.vovv)
    .add 112 (.ein [(4, [0, 1]), (19, [2, 3, 4, 1])] [0, 3, 2, 4]) 1 1,
    -- 327: x74 -= einsum("ijab->ijab", x55)
    .add 100 (.ein [(112, [0, 1, 2, 3])] [0, 1, 2, 3]) (-1) 1,
    -- 328: del x55
    .del 112,
    -- 329: x57 = np.zeros((nocc, nvir, nvir, nvir), dtype=types[float])
    .zeros 113 [0, 1, 1, 1],
    -- 330: x57 -= einsum("iabc->ibac", v.ovvv)
    .add 113 (.ein [(8, [0, 1, 2, 3])] [0, 2, 1, 3]) (-1) 1,
    -- 331: x57 += einsum("iabc->ibca", v.ovvv) * 2
    .add 113 (.ein [(8, [0, 1, 2, 3])] [0, 2, 3, 1]) 2 1,
    -- 332: x58 = np.zeros((nocc, nocc, nvir, nvir), dtype=types[float])
    .zeros 114 [0, 0, 1, 1],
    -- 333: x58 += einsum("ia,jbac->ijbc", t1, x57)
    .add 114 (.ein [(4, [0, 1]), (113, [2, 3, 1, 4])] [0, 2, 3, 4]) 1 1,
    -- 334: del x57
    .del 113,
    -- 335: x59 = np.zeros((nocc, nocc, nvir, nvir), dtype=types[float])
    .zeros 115 [0, 0, 1, 1],
    -- 336: x59 += einsum("ijab,kica->jkbc", t2, x58)
    .add 115 (.ein [(6, [0, 1, 2, 3]), (114, [4, 0, 5, 2])] [1, 4, 3, 5]) 1 1,
    -- 337: del x58
    .del 114,
    -- 338: x74 -= einsum("ijab->jiab", x59)
    .add 100 (.ein [(115, [0, 1, 2, 3])] [1, 0, 2, 3]) (-1) 1,
    -- 339: del x59
    .del 115,
    -- 340: x60 = np.zeros((nocc, nocc, nocc, nvir), dtype=types[float])
    .zeros 116 [0, 0, 0, 1],
    -- 341: x60 += einsum("ia,jkba->ijkb", t1, v.oovv)
    .add 116 (.ein [(4, [0, 1]), (13, [2, 3, 4, 1])] [0, 2, 3, 4]) 1 1,
    -- 342: x67 += einsum("ijka->jika", x60)
    .add 36 (.ein [(116, [0, 1, 2, 3])] [1, 0, 2, 3]) 1 1,
    -- 343: del x60
    .del 116,
    -- 344: x61 = np.zeros((nocc, nocc, nocc, nvir), dtype=types[float])
    .zeros 117 [0, 0, 0, 1],
    -- 345: x61 += einsum("ijab,klja->iklb", t2, v.ooov)
    .add 117 (.ein [(6, [0, 1, 2, 3]), (7, [4, 5, 1, 2])] [0, 4, 5, 3]) 1 1,
    -- 346: x67 -= einsum("ijka->jika", x61)
    .add 36 (.ein [(117, [0, 1, 2, 3])] [1, 0, 2, 3]) (-1) 1,
    -- 347: del x61
    .del 117,
    -- 348: x62 = np.zeros((nocc, nocc, nocc, nocc), dtype=types[float])
    .zeros 118 [0, 0, 0, 0],
    -- 349: x62 += einsum("ia,jkla->ijlk", t1, v.ooov)
    .add 118 (.ein [(4, [0, 1]), (7, [2, 3, 4, 1])] [0, 2, 4, 3]) 1 1,
    -- 350: x63 = np.zeros((nocc, nocc, nocc, nvir), dtype=types[float])
    .zeros 119 [0, 0, 0, 1],
    -- 351: x63 += einsum("ia,jkil->jkla", t1, x62)
    .add 119 (.ein [(4, [0, 1]), (118, [2, 3, 0, 4])] [2, 3, 4, 1]) 1 1,
    -- 352: x67 -= einsum("ijka->jika", x63)
    .add 36 (.ein [(119, [0, 1, 2, 3])] [1, 0, 2, 3]) (-1) 1,
    -- 353: del x63
    .del 119,
    -- 354: x68 = np.zeros((nocc, nocc, nvir, nvir), dtype=types[float])
    .zeros 120 [0, 0, 1, 1],
    -- 355: x68 += einsum("ia,ijkb->jkab", t1, x67)
    .add 120 (.ein [(4, [0, 1]), (36, [0, 2, 3, 4])] [2, 3, 1, 4]) 1 1,
    -- 356: del x67
    .del 36,
    -- 357: x74 += einsum("ijab->ijab", x68)
    .add 100 (.ein [(120, [0, 1, 2, 3])] [0, 1, 2, 3]) 1 1,
    -- 358: del x68
    .del 120,
    -- 359: x75 = np.zeros((nocc, nocc, nvir, nvir), dtype=types[float])
    .zeros 121 [0, 0, 1, 1],
    -- 360: x75 += einsum("ijab,kijl->klab", t2, x62)
    .add 121 (.ein [(6, [0, 1, 2, 3]), (118, [4, 0, 1, 5])] [4, 5, 2, 3]) 1 1,
    -- 361: del x62
    .del 118,
    -- 362: t2new += einsum("ijab->ijba", x75)
    .add 88 (.ein [(121, [0, 1, 2, 3])] [0, 1, 3, 2]) 1 1,
    -- 363: t2new += einsum("ijab->jiab", x75)
    .add 88 (.ein [(121, [0, 1, 2, 3])] [1, 0, 2, 3]) 1 1,
    -- 364: del x75
    .del 121,
    -- 365: x70 += einsum("ij->ji", f.oo)
    .add 53 (.ein [(14, [0, 1])] [1, 0]) 1 1,
    -- 366: x71 = np.zeros((nocc, nocc, nvir, nvir), dtype=types[float])
    .zeros 122 [0, 0, 1, 1],
    -- 367: x71 += einsum("ij,jkab->kiab", x70, t2)
    .add 122 (.ein [(53, [0, 1]), (6, [1, 2, 3, 4])] [2, 0, 3, 4]) 1 1,
    -- 368: del x70
    .del 53,
    -- 369: x74 += einsum("ijab->jiba", x71)
    .add 100 (.ein [(122, [0, 1, 2, 3])] [1, 0, 3, 2]) 1 1,
    -- 370: del x71
    .del 122,
    -- 371: x72 += einsum("ab->ab", f.vv)
    .add 80 (.ein [(15, [0, 1])] [0, 1]) 1 1,
    -- 372: x73 = np.zeros((nocc, nocc, nvir, nvir), dtype=types[float])
    .zeros 123 [0, 0, 1, 1],
    -- 373: x73 += einsum("ab,ijbc->ijca", x72, t2)
    .add 123 (.ein [(80, [0, 1]), (6, [2, 3, 1, 4])] [2, 3, 4, 0]) 1 1,
    -- 374: del x72
    .del 80,
    -- 375: x74 -= einsum("ijab->jiba", x73)
    .add 100 (.ein [(123, [0, 1, 2, 3])] [1, 0, 3, 2]) (-1) 1,
    -- 376: del x73
    .del 123,
    -- 377: t2new -= einsum("ijab->ijba", x74)
    .add 88 (.ein [(100, [0, 1, 2, 3])] [0, 1, 3, 2]) (-1) 1,
    -- 378: t2new -= einsum("ijab->jiab", x74)
    .add 88 (.ein [(100, [0, 1, 2, 3])] [1, 0, 2, 3]) (-1) 1,
    -- 379: del x74
    .del 100,
    -- 380: x76 = np.zeros((nocc, nocc, nocc, nvir), dtype=types[float])
    .zeros 124 [0, 0, 0, 1],
    -- 381: x76 += einsum("ijab,kbca->jikc", t2, v.ovvv)
    .add 124 (.ein [(6, [0, 1, 2, 3]), (8, [4, 3, 5, 2])] [1, 0, 4, 5]) 1 1,
    -- 382: x77 = np.zeros((nocc, nocc, nvir, nvir), dtype=types[float])
    .zeros 125 [0, 0, 1, 1],
    -- 383: x77 += einsum("ia,jkib->jkab", t1, x76)
    .add 125 (.ein [(4, [0, 1]), (124, [2, 3, 0, 4])] [2, 3, 1, 4]) 1 1,
    -- 384: del x76
    .del 124,
    -- 385: x83 += einsum("ijab->ijab", x77)
    .add 72 (.ein [(125, [0, 1, 2, 3])] [0, 1, 2, 3]) 1 1,
    -- 386: del x77
    .del 125,
    -- 387: x80 = np.zeros((nocc, nocc, nvir, nvir), dtype=types[float])
    .zeros 126 [0, 0, 1, 1],
    -- 388: x80 += einsum("iajb->jiab", v.ovov) * -0.5
    .add 126 (.ein [(5, [0, 1, 2, 3])] [2, 0, 1, 3]) (-1) 2,
    -- 389: x80 += einsum("iajb->jiba", v.ovov)
    .add 126 (.ein [(5, [0, 1, 2, 3])] [2, 0, 3, 1]) 1 1,
    -- 390: x81 = np.zeros((nocc, nocc), dtype=types[float])
    .zeros 127 [0, 0],
    -- 391: x81 += einsum("ijab,ikab->jk", t2, x80)
    .add 127 (.ein [(6, [0, 1, 2, 3]), (126, [0, 4, 2, 3])] [1, 4]) 1 1,
    -- 392: del x80
    .del 126,
    -- 393: x82 = np.zeros((nocc, nocc, nvir, nvir), dtype=types[float])
    .zeros 128 [0, 0, 1, 1],
    -- 394: x82 += einsum("ij,jkab->kiab", x81, t2) * 2
    .add 128 (.ein [(127, [0, 1]), (6, [1, 2, 3, 4])] [2, 0, 3, 4]) 2 1,
    -- 395: del x81
    .del 127,
    -- 396: x83 += einsum("ijab->ijba", x82)
    .add 72 (.ein [(128, [0, 1, 2, 3])] [0, 1, 3, 2]) 1 1,
    -- 397: del x82
    .del 128,
    -- 398: t2new += einsum("ijab->ijab", x83) * -1
    .add 88 (.ein [(72, [0, 1, 2, 3])] [0, 1, 2, 3]) (-1) 1,
    -- 399: t2new += einsum("ijab->jiba", x83) * -1
    .add 88 (.ein [(72, [0, 1, 2, 3])] [1, 0, 3, 2]) (-1) 1,
    -- 400: del x83
    .del 72,
    -- 401: x84 += einsum("iabj->jiba", v.ovvo) * 2
    .add 95 (.ein [(12, [0, 1, 2, 3])] [3, 0, 2, 1]) 2 1,
    -- 402: x84 -= einsum("ijab->jiab", v.oovv)
    .add 95 (.ein [(13, [0, 1, 2, 3])] [1, 0, 2, 3]) (-1) 1,
    -- 403: t2new += einsum("ijab,kica->kjcb", t2, x84)
    .add 88 (.ein [(6, [0, 1, 2, 3]), (95, [4, 0, 5, 2])] [4, 1, 5, 3]) 1 1,
    -- 404: del x84
    .del 95,
    -- 405: x85 = np.zeros((nocc, nocc, nocc, nocc), dtype=types[float])
    .zeros 129 [0, 0, 0, 0],
    -- 406: x85 += einsum("ijab,kbla->ijlk", t2, v.ovov)
    .add 129 (.ein [(6, [0, 1, 2, 3]), (5, [4, 3, 5, 2])] [0, 1, 5, 4]) 1 1,
    -- 407: x87 += einsum("ijkl->lkji", x85) * 0.9999999999999993
    .add 38 (.ein [(129, [0, 1, 2, 3])] [3, 2, 1, 0]) 1 1,
    -- 408: x88 += einsum("ijkl->lkji", x85)
    .add 39 (.ein [(129, [0, 1, 2, 3])] [3, 2, 1, 0]) 1 1,
    -- 409: del x85
    .del 129,
    -- 410: x87 += einsum("ijkl->kilj", v.oooo) * 0.9999999999999993
    .add 38 (.ein [(20, [0, 1, 2, 3])] [2, 0, 3, 1]) 1 1,
    -- 411: t2new += einsum("ijab,ijkl->klab", t2, x87)
    .add 88 (.ein [(6, [0, 1, 2, 3]), (38, [0, 1, 4, 5])] [4, 5, 2, 3]) 1 1,
    -- 412: del x87
    .del 38,
    -- 413: x88 += einsum("ijkl->kilj", v.oooo)
    .add 39 (.ein [(20, [0, 1, 2, 3])] [2, 0, 3, 1]) 1 1,
    -- 414: x89 = np.zeros((nocc, nocc, nocc, nvir), dtype=types[float])
    .zeros 130 [0, 0, 0, 1],
    -- 415: x89 += einsum("ia,ijkl->lkja", t1, x88)
    .add 130 (.ein [(4, [0, 1]), (39, [0, 2, 3, 4])] [4, 3, 2, 1]) 1 1,
    -- 416: del x88
    .del 39,
    -- 417: x89 += einsum("ijak->jkia", v.oovo) * -1
    .add 130 (.ein [(21, [0, 1, 2, 3])] [1, 3, 0, 2]) (-1) 1,
    -- 418: t2new += einsum("ia,jkib->jkab", t1, x89)
    .add 88 (.ein [(4, [0, 1]), (130, [2, 3, 0, 4])] [2, 3, 1, 4]) 1 1,
    -- 419: del x89
    .del 130,
    -- 420: x90 = np.zeros((nocc, nocc, nvir, nvir), dtype=types[float])
    .zeros 131 [0, 0, 1, 1],
    -- 421: x90 -= einsum("iabj->jiba", v.ovvo)
    .add 131 (.ein [(12, [0, 1, 2, 3])] [3, 0, 2, 1]) (-1) 1,
    -- 422: x90 += einsum("ijab,jakc->ikbc", t2, v.ovov)
    .add 131 (.ein [(6, [0, 1, 2, 3]), (5, [1, 2, 4, 5])] [0, 4, 3, 5]) 1 1,
    -- 423: t2new += einsum("ijab,kicb->jkac", t2, x90)
    .add 88 (.ein [(6, [0, 1, 2, 3]), (131, [4, 0, 5, 3])] [1, 4, 2, 5]) 1 1,
    -- 424: del x90
    .del 131,
    -- 425: x91 = np.zeros((nocc, nocc, nvir, nvir), dtype=types[float])
    .zeros 132 [0, 0, 1, 1],
    -- 426: x91 -= einsum("ijab->jiab", v.oovv)
    .add 132 (.ein [(13, [0, 1, 2, 3])] [1, 0, 2, 3]) (-1) 1,
    -- 427: x91 += einsum("ijab,jcka->ikbc", t2, v.ovov)
    .add 132 (.ein [(6, [0, 1, 2, 3]), (5, [1, 4, 5, 2])] [0, 5, 3, 4]) 1 1,
    -- 428: t2new += einsum("ijab,kicb->jkca", t2, x91)
    .add 88 (.ein [(6, [0, 1, 2, 3]), (132, [4, 0, 5, 3])] [1, 4, 5, 2]) 1 1,
    -- 429: del x91
    .del 132,
    -- 430: x92 = np.zeros((nbos, nbos), dtype=types[float])
    .zeros 133 [2, 2],
    -- 431: x92 += einsum("wia,xia->wx", gc.bov, u11)
    .add 133 (.ein [(26, [0, 1, 2]), (10, [3, 1, 2])] [0, 3]) 1 1,
    -- 432: x96 = np.zeros((nbos, nbos), dtype=types[float])
    .zeros 134 [2, 2],
    -- 433: x96 += einsum("wx->wx", x92) * 2
    .add 134 (.ein [(133, [0, 1])] [0, 1]) 2 1,
    -- 434: del x92
    .del 133,
    -- 435: x93 = np.zeros((nbos, nbos), dtype=types[float])
    .zeros 135 [2, 2],
    -- 436: x93 += einsum("wia,xia->wx", g.bov, u11)
    .add 135 (.ein [(2, [0, 1, 2]), (10, [3, 1, 2])] [0, 3]) 1 1,
    -- 437: x94 = np.zeros((nbos, nbos), dtype=types[float])
    .zeros 136 [2, 2],
    -- 438: x94 += einsum("wx->wx", x93) * 2
    .add 136 (.ein [(135, [0, 1])] [0, 1]) 2 1,
    -- 439: del x93
    .del 135,
    -- 440: x94 += einsum("wx->wx", w)
    .add 136 (.ein [(22, [0, 1])] [0, 1]) 1 1,
    -- 441: x95 = np.zeros((nbos, nbos), dtype=types[float])
    .zeros 137 [2, 2],
    -- 442: x95 += einsum("wx,wy->xy", s2, x94)
    .add 137 (.ein [(17, [0, 1]), (136, [0, 2])] [1, 2]) 1 1,
    -- 443: x96 += einsum("wx->wx", x95)
    .add 134 (.ein [(137, [0, 1])] [0, 1]) 1 1,
    -- 444: del x95
    .del 137,
    -- 445: s2new += einsum("wx->wx", x96)
    .add 50 (.ein [(134, [0, 1])] [0, 1]) 1 1,
    -- 446: s2new += einsum("wx->xw", x96)
    .add 50 (.ein [(134, [0, 1])] [1, 0]) 1 1,
    -- 447: del x96
    .del 134,
    -- 448: u11new += einsum("wx,wia->xia", x94, u11)
    .add 59 (.ein [(136, [0, 1]), (10, [0, 2, 3])] [1, 2, 3]) 1 1,
    -- 449: del x94
    .del 136,
    -- 450: x98 = np.zeros((nbos, nocc, nvir), dtype=types[float])
    .zeros 138 [2, 0, 1],
    -- 451: x98 += einsum("wx,xia->wia", s2, g.bov)
    .add 138 (.ein [(17, [0, 1]), (2, [1, 2, 3])] [0, 2, 3]) 1 1,
    -- 452: x99 += einsum("wia->wia", x98)
    .add 49 (.ein [(138, [0, 1, 2])] [0, 1, 2]) 1 1,
    -- 453: del x98
    .del 138,
    -- 454: x99 += einsum("wia->wia", gc.bov)
    .add 49 (.ein [(26, [0, 1, 2])] [0, 1, 2]) 1 1,
    -- 455: x105 += einsum("ia,wja->wji", t1, x99)
    .add 111 (.ein [(4, [0, 1]), (49, [2, 3, 1])] [2, 3, 0]) 1 1,
    -- 456: u11new += einsum("wia,ijba->wjb", x99, x7)
    .add 59 (.ein [(49, [0, 1, 2]), (55, [1, 3, 4, 2])] [0, 3, 4]) 1 1,
    -- 457: del x99
    .del 49,
    -- 458: del x7
    .del 55,
    -- 459: x100 = np.zeros((nocc, nocc, nvir, nvir), dtype=types[float])
    .zeros 139 [0, 0, 1, 1],
    -- 460: x100 += einsum("iajb->jiab", v.ovov) * -1
    .add 139 (.ein [(5, [0, 1, 2, 3])] [2, 0, 1, 3]) (-1) 1,
    -- 461: x100 += einsum("iajb->jiba", v.ovov) * 2
    .add 139 (.ein [(5, [0, 1, 2, 3])] [2, 0, 3, 1]) 2 1,
    -- 462: x103 += einsum("ijab,ijcb->ac", t2, x100) * -1
    .add 74 (.ein [(6, [0, 1, 2, 3]), (139, [0, 1, 4, 3])] [2, 4]) (-1) 1,
    -- 463: del x100
    .del 139,
    -- 464: x101 = np.zeros((nocc, nvir, nvir, nvir), dtype=types[float])
    .zeros 140 [0, 1, 1, 1],
    -- 465: x101 += einsum("iabc->ibac", v.ovvv)
    .add 140 (.ein [(8, [0, 1, 2, 3])] [0, 2, 1, 3]) 1 1,
    -- 466: x101 += einsum("iabc->ibca", v.ovvv) * -0.5
    .add 140 (.ein [(8, [0, 1, 2, 3])] [0, 2, 3, 1]) (-1) 2,
    -- 467: x103 += einsum("ia,ibac->bc", t1, x101) * 2
    .add 74 (.ein [(4, [0, 1]), (140, [0, 2, 1, 3])] [2, 3]) 2 1,
    -- 468: del x101
    .del 140,
    -- 469: x103 += einsum("ab->ab", f.vv)
    .add 74 (.ein [(15, [0, 1])] [0, 1]) 1 1,
    -- 470: u11new += einsum("ab,wib->wia", x103, u11)
    .add 59 (.ein [(74, [0, 1]), (10, [2, 3, 1])] [2, 3, 0]) 1 1,
    -- 471: del x103
    .del 74,
    -- 472: x104 += einsum("ia->ia", f.ov)
    .add 45 (.ein [(11, [0, 1])] [0, 1]) 1 1,
    -- 473: x105 += einsum("ia,wja->wij", x104, u11)
    .add 111 (.ein [(45, [0, 1]), (10, [2, 3, 1])] [2, 0, 3]) 1 1,
    -- 474: del x104
    .del 45,
    -- 475: x105 += einsum("wij->wij", gc.boo)
    .add 111 (.ein [(25, [0, 1, 2])] [0, 1, 2]) 1 1,
    -- 476: x105 += einsum("wx,xij->wij", s2, g.boo)
    .add 111 (.ein [(17, [0, 1]), (0, [1, 2, 3])] [0, 2, 3]) 1 1,
    -- 477: u11new -= einsum("ia,wij->wja", t1, x105)
    .add 59 (.ein [(4, [0, 1]), (111, [2, 0, 3])] [2, 3, 1]) (-1) 1,
    -- 478: del x105
    .del 111,
    -- 479: x106 += einsum("wab->wab", gc.bvv)
    .add 84 (.ein [(28, [0, 1, 2])] [0, 1, 2]) 1 1,
    -- 480: x106 += einsum("wx,xab->wab", s2, g.bvv)
    .add 84 (.ein [(17, [0, 1]), (3, [1, 2, 3])] [0, 2, 3]) 1 1,
    -- 481: u11new += einsum("ia,wba->wib", t1, x106)
    .add 59 (.ein [(4, [0, 1]), (84, [2, 3, 1])] [2, 0, 3]) 1 1,
    -- 482: del x106
    .del 84,
    -- 483: t1new += einsum("w,wai->ia", s1, g.bvo)
    .add 40 (.ein [(9, [0]), (1, [0, 1, 2])] [2, 1]) 1 1,
    -- 484: t1new += einsum("ai->ia", f.vo)
    .add 40 (.ein [(23, [0, 1])] [1, 0]) 1 1,
    -- 485: t1new += einsum("wab,wib->ia", g.bvv, u11)
    .add 40 (.ein [(3, [0, 1, 2]), (10, [0, 3, 2])] [3, 1]) 1 1,
    -- 486: t2new -= einsum("ijab,jack->kicb", t2, v.ovvo)
    .add 88 (.ein [(6, [0, 1, 2, 3]), (12, [1, 2, 4, 5])] [5, 0, 4, 3]) (-1) 1,
    -- 487: t2new -= einsum("ijab,jkca->kibc", t2, v.oovv)
    .add 88 (.ein [(6, [0, 1, 2, 3]), (13, [1, 4, 5, 2])] [4, 0, 3, 5]) (-1) 1,
    -- 488: t2new -= einsum("ijab,jkcb->ikac", t2, v.oovv)
    .add 88 (.ein [(6, [0, 1, 2, 3]), (13, [1, 4, 5, 3])] [0, 4, 2, 5]) (-1) 1,
    -- 489: t2new += einsum("ijab,jbck->ikac", t2, v.ovvo) * 2
    .add 88 (.ein [(6, [0, 1, 2, 3]), (12, [1, 3, 4, 5])] [0, 5, 2, 4]) 2 1,
    -- 490: t2new += einsum("ijab,cadb->jidc", t2, v.vvvv)
    .add 88 (.ein [(6, [0, 1, 2, 3]), (18, [4, 2, 5, 3])] [1, 0, 5, 4]) 1 1,
    -- 491: t2new += einsum("aibj->jiba", v.vovo)
    .add 88 (.ein [(24, [0, 1, 2, 3])] [3, 1, 2, 0]) 1 1,
    -- 492: t2new -= einsum("ia,ijbk->kjba", t1, v.oovo)
    .add 88 (.ein [(4, [0, 1]), (21, [0, 2, 3, 4])] [4, 2, 3, 1]) (-1) 1,
    -- 493: s1new += einsum("ia,wia->w", t1, gc.bov) * 2
    .add 54 (.ein [(4, [0, 1]), (26, [2, 0, 1])] [2]) 2 1,
    -- 494: s1new += einsum("w,wx->x", s1, w)
    .add 54 (.ein [(9, [0]), (22, [0, 1])] [1]) 1 1,
    -- 495: s1new += einsum("w->w", G)
    .add 54 (.ein [(16, [0])] [0]) 1 1,
    -- 496: u11new += einsum("wx,xai->wia", s2, g.bvo)
    .add 59 (.ein [(17, [0, 1]), (1, [1, 2, 3])] [0, 3, 2]) 1 1,
    -- 497: u11new += einsum("wai->wia", gc.bvo)
    .add 59 (.ein [(27, [0, 1, 2])] [0, 2, 1]) 1 1
  ]
  ret := [(chars! "t1new", 40), (chars! "t2new", 88), (chars! "s1new", 54), (chars! "s2new", 50), (chars! "u11new", 59)]

/-- codegen/RCCSD_SD_1_1.py:501-1349 `update_lams`. -/
def update_lams : GenFun where
  args := [chars! "g.boo", chars! "g.bvo", chars! "g.bov", chars! "g.bvv", chars! "s1", chars! "f.ov", chars! "t2", chars! "v.ovvv", chars! "t1", chars! "v.ovov", chars! "l1", chars! "l2", chars! "v.ooov", chars! "v.ovvo", chars! "v.oovv", chars! "v.oooo", chars! "v.oovo", chars! "v.vvvv", chars! "v.vovv", chars! "u11", chars! "ls1", chars! "f.oo", chars! "f.vv", chars! "G", chars! "f.vo", chars! "lu11", chars! "s2", chars! "w", chars! "ls2"]
  body := [
    -- 503: gc = Namespace(
    .set 29 (.tr 0 [0, 2, 1]) 1 1,
    .set 30 (.tr 1 [0, 2, 1]) 1 1,
    .set 31 (.tr 2 [0, 2, 1]) 1 1,
    .set 32 (.tr 3 [0, 2, 1]) 1 1,
    -- 511: x0 = np.zeros((nocc, nvir), dtype=types[float])
    .zeros 33 [0, 1],
    -- 512: x0 += einsum("w,wia->ia", s1, g.bov)
    .add 33 (.ein [(4, [0]), (2, [0, 1, 2])] [1, 2]) 1 1,
    -- 513: x1 = np.zeros((nocc, nvir), dtype=types[float])
    .zeros 34 [0, 1],
    -- 514: x1 += einsum("ia->ia", x0)
    .add 34 (.ein [(33, [0, 1])] [0, 1]) 1 1,
    -- 515: x57 = np.zeros((nocc, nvir), dtype=types[float])
    .zeros 35 [0, 1],
    -- 516: x57 += einsum("ia->ia", x0)
    .add 35 (.ein [(33, [0, 1])] [0, 1]) 1 1,
    -- 517: x67 = np.zeros((nocc, nvir), dtype=types[float])
    .zeros 36 [0, 1],
    -- 518: x67 += einsum("ia->ia", x0) * 0.5
    .add 36 (.ein [(33, [0, 1])] [0, 1]) 1 2,
    -- 519: x100 = np.zeros((nocc, nvir), dtype=types[float])
    .zeros 37 [0, 1],
    -- 520: x100 += einsum("ia->ia", x0)
    .add 37 (.ein [(33, [0, 1])] [0, 1]) 1 1,
    -- 521: x136 = np.zeros((nocc, nvir), dtype=types[float])
    .zeros 38 [0, 1],
    -- 522: x136 += einsum("ia->ia", x0)
    .add 38 (.ein [(33, [0, 1])] [0, 1]) 1 1,
    -- 523: del x0
    .del 33,
    -- 524: x1 += einsum("ia->ia", f.ov)
    .add 34 (.ein [(5, [0, 1])] [0, 1]) 1 1,
    -- 525: x2 = np.zeros((nocc, nocc, nocc, nvir), dtype=types[float])
    .zeros 39 [0, 0, 0, 1],
    -- 526: x2 += einsum("ia,jkab->jkib", x1, t2) * 0.25
    .add 39 (.ein [(34, [0, 1]), (6, [2, 3, 1, 4])] [2, 3, 0, 4]) 1 4,
    -- 527: del x1
    .del 34,
    -- 528: x20 = np.zeros((nocc, nocc, nocc, nvir), dtype=types[float])
    .zeros 40 [0, 0, 0, 1],
    -- 529: x20 += einsum("ijka->jkia", x2)
    .add 40 (.ein [(39, [0, 1, 2, 3])] [1, 2, 0, 3]) 1 1,
    -- 530: x20 += einsum("ijka->ikja", x2) * -2
    .add 40 (.ein [(39, [0, 1, 2, 3])] [0, 2, 1, 3]) (-2) 1,
    -- 531: del x2
    .del 39,
    -- 532: x3 = np.zeros((nocc, nocc, nocc, nvir), dtype=types[float])
    .zeros 41 [0, 0, 0, 1],
    -- 533: x3 += einsum("ijab,kacb->ijkc", t2, v.ovvv)
    .add 41 (.ein [(6, [0, 1, 2, 3]), (7, [4, 2, 5, 3])] [0, 1, 4, 5]) 1 1,
    -- 534: x11 = np.zeros((nocc, nocc, nocc, nvir), dtype=types[float])
    .zeros 42 [0, 0, 0, 1],
    -- 535: x11 += einsum("ijka->ijka", x3) * -0.5
    .add 42 (.ein [(41, [0, 1, 2, 3])] [0, 1, 2, 3]) (-1) 2,
    -- 536: del x3
    .del 41,
    -- 537: x4 = np.zeros((nocc, nocc, nvir, nvir), dtype=types[float])
    .zeros 43 [0, 0, 1, 1],
    -- 538: x4 += einsum("ia,jabc->ijbc", t1, v.ovvv)
    .add 43 (.ein [(8, [0, 1]), (7, [2, 1, 3, 4])] [0, 2, 3, 4]) 1 1,
    -- 539: x5 = np.zeros((nocc, nocc, nocc, nvir), dtype=types[float])
    .zeros 44 [0, 0, 0, 1],
    -- 540: x5 += einsum("ia,jkba->jikb", t1, x4)
    .add 44 (.ein [(8, [0, 1]), (43, [2, 3, 4, 1])] [2, 0, 3, 4]) 1 1,
    -- 541: x11 += einsum("ijka->ijka", x5) * -0.5
    .add 42 (.ein [(44, [0, 1, 2, 3])] [0, 1, 2, 3]) (-1) 2,
    -- 542: del x5
    .del 44,
    -- 543: x131 = np.zeros((nocc, nocc, nvir, nvir), dtype=types[float])
    .zeros 45 [0, 0, 1, 1],
    -- 544: x131 += einsum("ijab->ijab", x4)
    .add 45 (.ein [(43, [0, 1, 2, 3])] [0, 1, 2, 3]) 1 1,
    -- 545: del x4
    .del 43,
    -- 546: x6 = np.zeros((nocc, nocc, nocc, nocc), dtype=types[float])
    .zeros 46 [0, 0, 0, 0],
    -- 547: x6 += einsum("ijab,kbla->ijlk", t2, v.ovov)
    .add 46 (.ein [(6, [0, 1, 2, 3]), (9, [4, 3, 5, 2])] [0, 1, 5, 4]) 1 1,
    -- 548: x9 = np.zeros((nocc, nocc, nocc, nocc), dtype=types[float])
    .zeros 47 [0, 0, 0, 0],
    -- 549: x9 += einsum("ijkl->jilk", x6)
    .add 47 (.ein [(46, [0, 1, 2, 3])] [1, 0, 3, 2]) 1 1,
    -- 550: x178 = np.zeros((nocc, nocc, nocc, nocc), dtype=types[float])
    .zeros 48 [0, 0, 0, 0],
    -- 551: x178 += einsum("ijkl->lkji", x6)
    .add 48 (.ein [(46, [0, 1, 2, 3])] [3, 2, 1, 0]) 1 1,
    -- 552: del x6
    .del 46,
    -- 553: x7 = np.zeros((nocc, nocc, nocc, nvir), dtype=types[float])
    .zeros 49 [0, 0, 0, 1],
    -- 554: x7 += einsum("ia,jakb->ikjb", t1, v.ovov)
    .add 49 (.ein [(8, [0, 1]), (9, [2, 1, 3, 4])] [0, 3, 2, 4]) 1 1,
    -- 555: x8 = np.zeros((nocc, nocc, nocc, nocc), dtype=types[float])
    .zeros 50 [0, 0, 0, 0],
    -- 556: x8 += einsum("ia,jkla->ijkl", t1, x7)
    .add 50 (.ein [(8, [0, 1]), (49, [2, 3, 4, 1])] [0, 2, 3, 4]) 1 1,
    -- 557: x9 += einsum("ijkl->ijkl", x8)
    .add 47 (.ein [(50, [0, 1, 2, 3])] [0, 1, 2, 3]) 1 1,
    -- 558: x10 = np.zeros((nocc, nocc, nocc, nvir), dtype=types[float])
    .zeros 51 [0, 0, 0, 1],
    -- 559: x10 += einsum("ia,jkil->jkla", t1, x9) * 0.5
    .add 51 (.ein [(8, [0, 1]), (47, [2, 3, 0, 4])] [2, 3, 4, 1]) 1 2,
    -- 560: del x9
    .del 47,
    -- 561: x11 += einsum("ijka->jika", x10)
    .add 42 (.ein [(51, [0, 1, 2, 3])] [1, 0, 2, 3]) 1 1,
    -- 562: del x10
    .del 51,
    -- 563: x20 += einsum("ijka->ikja", x11)
    .add 40 (.ein [(42, [0, 1, 2, 3])] [0, 2, 1, 3]) 1 1,
    -- 564: x20 += einsum("ijka->jkia", x11) * -0.5
    .add 40 (.ein [(42, [0, 1, 2, 3])] [1, 2, 0, 3]) (-1) 2,
    -- 565: del x11
    .del 42,
    -- 566: x178 += einsum("ijkl->lkji", x8)
    .add 48 (.ein [(50, [0, 1, 2, 3])] [3, 2, 1, 0]) 1 1,
    -- 567: del x8
    .del 50,
    -- 568: x15 = np.zeros((nocc, nocc, nocc, nvir), dtype=types[float])
    .zeros 52 [0, 0, 0, 1],
    -- 569: x15 += einsum("ijka->ijka", x7) * -1
    .add 52 (.ein [(49, [0, 1, 2, 3])] [0, 1, 2, 3]) (-1) 1,
    -- 570: x15 += einsum("ijka->ikja", x7) * 2
    .add 52 (.ein [(49, [0, 1, 2, 3])] [0, 2, 1, 3]) 2 1,
    -- 571: x24 = np.zeros((nocc, nocc, nocc, nvir), dtype=types[float])
    .zeros 53 [0, 0, 0, 1],
    -- 572: x24 += einsum("ijka->ijka", x7) * 2
    .add 53 (.ein [(49, [0, 1, 2, 3])] [0, 1, 2, 3]) 2 1,
    -- 573: x24 -= einsum("ijka->ikja", x7)
    .add 53 (.ein [(49, [0, 1, 2, 3])] [0, 2, 1, 3]) (-1) 1,
    -- 574: x25 = np.zeros((nocc, nocc, nocc, nvir), dtype=types[float])
    .zeros 54 [0, 0, 0, 1],
    -- 575: x25 -= einsum("ijka->ijka", x7)
    .add 54 (.ein [(49, [0, 1, 2, 3])] [0, 1, 2, 3]) (-1) 1,
    -- 576: x25 += einsum("ijka->ikja", x7) * 2
    .add 54 (.ein [(49, [0, 1, 2, 3])] [0, 2, 1, 3]) 2 1,
    -- 577: x55 = np.zeros((nocc, nocc, nocc, nvir), dtype=types[float])
    .zeros 55 [0, 0, 0, 1],
    -- 578: x55 += einsum("ijka->jkia", x7) * -1
    .add 55 (.ein [(49, [0, 1, 2, 3])] [1, 2, 0, 3]) (-1) 1,
    -- 579: x55 += einsum("ijka->kjia", x7) * 2
    .add 55 (.ein [(49, [0, 1, 2, 3])] [2, 1, 0, 3]) 2 1,
    -- 580: x125 = np.zeros((nocc, nocc, nvir, nvir), dtype=types[float])
    .zeros 56 [0, 0, 1, 1],
    -- 581: x125 += einsum("ai,ijkb->jkab", l1, x7)
    .add 56 (.ein [(10, [0, 1]), (49, [1, 2, 3, 4])] [2, 3, 0, 4]) 1 1,
    -- 582: x143 = np.zeros((nocc, nocc, nvir, nvir), dtype=types[float])
    .zeros 57 [0, 0, 1, 1],
    -- 583: x143 += einsum("ijab->ijab", x125)
    .add 57 (.ein [(56, [0, 1, 2, 3])] [0, 1, 2, 3]) 1 1,
    -- 584: del x125
    .del 56,
    -- 585: x12 = np.zeros((nocc, nocc, nvir, nvir), dtype=types[float])
    .zeros 58 [0, 0, 1, 1],
    -- 586: x12 += einsum("iajb->jiab", v.ovov)
    .add 58 (.ein [(9, [0, 1, 2, 3])] [2, 0, 1, 3]) 1 1,
    -- 587: x12 += einsum("iajb->jiba", v.ovov) * -0.5
    .add 58 (.ein [(9, [0, 1, 2, 3])] [2, 0, 3, 1]) (-1) 2,
    -- 588: x13 = np.zeros((nocc, nvir), dtype=types[float])
    .zeros 59 [0, 1],
    -- 589: x13 += einsum("ia,ijba->jb", t1, x12)
    .add 59 (.ein [(8, [0, 1]), (58, [0, 2, 3, 1])] [2, 3]) 1 1,
    -- 590: x14 = np.zeros((nocc, nocc, nocc, nvir), dtype=types[float])
    .zeros 60 [0, 0, 0, 1],
    -- 591: x14 += einsum("ia,jkab->jkib", x13, t2) * 0.5
    .add 60 (.ein [(59, [0, 1]), (6, [2, 3, 1, 4])] [2, 3, 0, 4]) 1 2,
    -- 592: x20 += einsum("ijka->jkia", x14)
    .add 40 (.ein [(60, [0, 1, 2, 3])] [1, 2, 0, 3]) 1 1,
    -- 593: x20 += einsum("ijka->ikja", x14) * -2
    .add 40 (.ein [(60, [0, 1, 2, 3])] [0, 2, 1, 3]) (-2) 1,
    -- 594: del x14
    .del 60,
    -- 595: x67 += einsum("ia->ia", x13)
    .add 36 (.ein [(59, [0, 1])] [0, 1]) 1 1,
    -- 596: del x13
    .del 59,
    -- 597: x56 = np.zeros((nocc, nvir), dtype=types[float])
    .zeros 61 [0, 1],
    -- 598: x56 += einsum("ia,ijba->jb", t1, x12) * 2
    .add 61 (.ein [(8, [0, 1]), (58, [0, 2, 3, 1])] [2, 3]) 2 1,
    -- 599: x57 += einsum("ia->ia", x56)
    .add 35 (.ein [(61, [0, 1])] [0, 1]) 1 1,
    -- 600: del x56
    .del 61,
    -- 601: x175 = np.zeros((nocc, nocc), dtype=types[float])
    .zeros 62 [0, 0],
    -- 602: x175 += einsum("ijab,ikba->jk", t2, x12)
    .add 62 (.ein [(6, [0, 1, 2, 3]), (58, [0, 4, 3, 2])] [1, 4]) 1 1,
    -- 603: del x12
    .del 58,
    -- 604: x176 = np.zeros((nocc, nocc, nvir, nvir), dtype=types[float])
    .zeros 63 [0, 0, 1, 1],
    -- 605: x176 += einsum("ij,abik->kjab", x175, l2) * 2
    .add 63 (.ein [(62, [0, 1]), (11, [2, 3, 0, 4])] [4, 1, 2, 3]) 2 1,
    -- 606: del x175
    .del 62,
    -- 607: x177 = np.zeros((nocc, nocc, nvir, nvir), dtype=types[float])
    .zeros 64 [0, 0, 1, 1],
    -- 608: x177 += einsum("ijab->ijba", x176)
    .add 64 (.ein [(63, [0, 1, 2, 3])] [0, 1, 3, 2]) 1 1,
    -- 609: del x176
    .del 63,
    -- 610: x15 += einsum("ijka->jika", v.ooov) * 2
    .add 52 (.ein [(12, [0, 1, 2, 3])] [1, 0, 2, 3]) 2 1,
    -- 611: x15 += einsum("ijka->jkia", v.ooov) * -1
    .add 52 (.ein [(12, [0, 1, 2, 3])] [1, 2, 0, 3]) (-1) 1,
    -- 612: x16 = np.zeros((nocc, nocc, nvir, nvir), dtype=types[float])
    .zeros 65 [0, 0, 1, 1],
    -- 613: x16 += einsum("ijab->jiab", t2)
    .add 65 (.ein [(6, [0, 1, 2, 3])] [1, 0, 2, 3]) 1 1,
    -- 614: x16 += einsum("ijab->jiba", t2) * -0.5
    .add 65 (.ein [(6, [0, 1, 2, 3])] [1, 0, 3, 2]) (-1) 2,
    -- 615: x20 += einsum("ijka,klba->ijlb", x15, x16) * -0.5
    .add 40 (.ein [(52, [0, 1, 2, 3]), (65, [2, 4, 5, 3])] [0, 1, 4, 5]) (-1) 2,
    -- 616: del x15
    .del 52,
    -- 617: x33 = np.zeros((nocc, nocc), dtype=types[float])
    .zeros 66 [0, 0],
    -- 618: x33 += einsum("abij,ikba->jk", l2, x16) * 2
    .add 66 (.ein [(11, [0, 1, 2, 3]), (65, [2, 4, 1, 0])] [3, 4]) 2 1,
    -- 619: x34 = np.zeros((nocc, nocc, nocc, nvir), dtype=types[float])
    .zeros 67 [0, 0, 0, 1],
    -- 620: x34 += einsum("ia,jk->jkia", t1, x33) * -0.5
    .add 67 (.ein [(8, [0, 1]), (66, [2, 3])] [2, 3, 0, 1]) (-1) 2,
    -- 621: x95 = np.zeros((nocc, nocc), dtype=types[float])
    .zeros 68 [0, 0],
    -- 622: x95 += einsum("ij->ij", x33)
    .add 68 (.ein [(66, [0, 1])] [0, 1]) 1 1,
    -- 623: x108 = np.zeros((nocc, nocc), dtype=types[float])
    .zeros 69 [0, 0],
    -- 624: x108 += einsum("ij->ij", x33)
    .add 69 (.ein [(66, [0, 1])] [0, 1]) 1 1,
    -- 625: del x33
    .del 66,
    -- 626: x76 = np.zeros((nocc, nvir), dtype=types[float])
    .zeros 70 [0, 1],
    -- 627: x76 += einsum("iabc,ijca->jb", v.ovvv, x16)
    .add 70 (.ein [(7, [0, 1, 2, 3]), (65, [0, 4, 3, 1])] [4, 2]) 1 1,
    -- 628: x86 = np.zeros((nocc, nocc), dtype=types[float])
    .zeros 71 [0, 0],
    -- 629: x86 += einsum("abij,ikba->jk", l2, x16)
    .add 71 (.ein [(11, [0, 1, 2, 3]), (65, [2, 4, 1, 0])] [3, 4]) 1 1,
    -- 630: x87 = np.zeros((nocc, nocc), dtype=types[float])
    .zeros 72 [0, 0],
    -- 631: x87 += einsum("ij->ij", x86)
    .add 72 (.ein [(71, [0, 1])] [0, 1]) 1 1,
    -- 632: x171 = np.zeros((nocc, nocc, nvir, nvir), dtype=types[float])
    .zeros 73 [0, 0, 1, 1],
    -- 633: x171 += einsum("ij,jakb->kiab", x86, v.ovov) * 2
    .add 73 (.ein [(71, [0, 1]), (9, [1, 2, 3, 4])] [3, 0, 2, 4]) 2 1,
    -- 634: del x86
    .del 71,
    -- 635: x172 = np.zeros((nocc, nocc, nvir, nvir), dtype=types[float])
    .zeros 74 [0, 0, 1, 1],
    -- 636: x172 += einsum("ijab->jiba", x171)
    .add 74 (.ein [(73, [0, 1, 2, 3])] [1, 0, 3, 2]) 1 1,
    -- 637: del x171
    .del 73,
    -- 638: x92 = np.zeros((nvir, nvir), dtype=types[float])
    .zeros 75 [1, 1],
    -- 639: x92 += einsum("abij,ijca->bc", l2, x16)
    .add 75 (.ein [(11, [0, 1, 2, 3]), (65, [2, 3, 4, 0])] [1, 4]) 1 1,
    -- 640: x93 = np.zeros((nvir, nvir), dtype=types[float])
    .zeros 76 [1, 1],
    -- 641: x93 += einsum("ab->ab", x92)
    .add 76 (.ein [(75, [0, 1])] [0, 1]) 1 1,
    -- 642: x170 = np.zeros((nocc, nocc, nvir, nvir), dtype=types[float])
    .zeros 77 [0, 0, 1, 1],
    -- 643: x170 += einsum("ab,ibjc->ijca", x92, v.ovov) * 2
    .add 77 (.ein [(75, [0, 1]), (9, [2, 1, 3, 4])] [2, 3, 4, 0]) 2 1,
    -- 644: x172 += einsum("ijab->jiba", x170)
    .add 74 (.ein [(77, [0, 1, 2, 3])] [1, 0, 3, 2]) 1 1,
    -- 645: del x170
    .del 77,
    -- 646: l2new = np.zeros((nvir, nvir, nocc, nocc), dtype=types[float])
    .zeros 78 [1, 1, 0, 0],
    -- 647: l2new += einsum("ijab->baij", x172) * -1
    .add 78 (.ein [(74, [0, 1, 2, 3])] [3, 2, 0, 1]) (-1) 1,
    -- 648: l2new += einsum("ijab->abji", x172) * -1
    .add 78 (.ein [(74, [0, 1, 2, 3])] [2, 3, 1, 0]) (-1) 1,
    -- 649: del x172
    .del 74,
    -- 650: x180 = np.zeros((nvir, nvir), dtype=types[float])
    .zeros 79 [1, 1],
    -- 651: x180 += einsum("ab->ab", x92)
    .add 79 (.ein [(75, [0, 1])] [0, 1]) 1 1,
    -- 652: del x92
    .del 75,
    -- 653: x179 = np.zeros((nocc, nvir), dtype=types[float])
    .zeros 80 [0, 1],
    -- 654: x179 += einsum("iabc,ijca->jb", v.ovvv, x16) * 2
    .add 80 (.ein [(7, [0, 1, 2, 3]), (65, [0, 4, 3, 1])] [4, 2]) 2 1,
    -- 655: x17 = np.zeros((nocc, nocc, nvir, nvir), dtype=types[float])
    .zeros 81 [0, 0, 1, 1],
    -- 656: x17 += einsum("iabj->ijba", v.ovvo) * 2
    .add 81 (.ein [(13, [0, 1, 2, 3])] [0, 3, 2, 1]) 2 1,
    -- 657: x17 += einsum("ijab->ijab", v.oovv) * -1
    .add 81 (.ein [(14, [0, 1, 2, 3])] [0, 1, 2, 3]) (-1) 1,
    -- 658: x20 += einsum("ia,jkba->ijkb", t1, x17) * -0.25
    .add 40 (.ein [(8, [0, 1]), (81, [2, 3, 4, 1])] [0, 2, 3, 4]) (-1) 4,
    -- 659: del x17
    .del 81,
    -- 660: x18 = np.zeros((nocc, nocc, nocc, nocc), dtype=types[float])
    .zeros 82 [0, 0, 0, 0],
    -- 661: x18 += einsum("ia,jkla->ijlk", t1, v.ooov)
    .add 82 (.ein [(8, [0, 1]), (12, [2, 3, 4, 1])] [0, 2, 4, 3]) 1 1,
    -- 662: x19 = np.zeros((nocc, nocc, nocc, nocc), dtype=types[float])
    .zeros 83 [0, 0, 0, 0],
    -- 663: x19 += einsum("ijkl->jkli", x18)
    .add 83 (.ein [(82, [0, 1, 2, 3])] [1, 2, 3, 0]) 1 1,
    -- 664: x19 += einsum("ijkl->kjli", x18) * -0.5
    .add 83 (.ein [(82, [0, 1, 2, 3])] [2, 1, 3, 0]) (-1) 2,
    -- 665: x27 = np.zeros((nocc, nocc, nocc, nocc), dtype=types[float])
    .zeros 84 [0, 0, 0, 0],
    -- 666: x27 -= einsum("ijkl->ijkl", x18)
    .add 84 (.ein [(82, [0, 1, 2, 3])] [0, 1, 2, 3]) (-1) 1,
    -- 667: x27 += einsum("ijkl->ikjl", x18) * 2
    .add 84 (.ein [(82, [0, 1, 2, 3])] [0, 2, 1, 3]) 2 1,
    -- 668: x28 = np.zeros((nocc, nocc, nocc, nvir), dtype=types[float])
    .zeros 85 [0, 0, 0, 1],
    -- 669: x28 += einsum("ia,jikl->jkla", t1, x27)
    .add 85 (.ein [(8, [0, 1]), (84, [2, 0, 3, 4])] [2, 3, 4, 1]) 1 1,
    -- 670: del x27
    .del 84,
    -- 671: x128 = np.zeros((nocc, nocc, nvir, nvir), dtype=types[float])
    .zeros 86 [0, 0, 1, 1],
    -- 672: x128 += einsum("abij,jkli->klba", l2, x18)
    .add 86 (.ein [(11, [0, 1, 2, 3]), (82, [3, 4, 5, 2])] [4, 5, 1, 0]) 1 1,
    -- 673: del x18
    .del 82,
    -- 674: x143 -= einsum("ijab->ijab", x128)
    .add 57 (.ein [(86, [0, 1, 2, 3])] [0, 1, 2, 3]) (-1) 1,
    -- 675: del x128
    .del 86,
    -- 676: x19 += einsum("ijkl->kijl", v.oooo) * -0.5
    .add 83 (.ein [(15, [0, 1, 2, 3])] [2, 0, 1, 3]) (-1) 2,
    -- 677: x19 += einsum("ijkl->kilj", v.oooo)
    .add 83 (.ein [(15, [0, 1, 2, 3])] [2, 0, 3, 1]) 1 1,
    -- 678: x20 += einsum("ia,ijkl->ljka", t1, x19) * 0.5
    .add 40 (.ein [(8, [0, 1]), (83, [0, 2, 3, 4])] [4, 2, 3, 1]) 1 2,
    -- 679: del x19
    .del 83,
    -- 680: x20 += einsum("ijak->jika", v.oovo) * -0.5
    .add 40 (.ein [(16, [0, 1, 2, 3])] [1, 0, 3, 2]) (-1) 2,
    -- 681: x20 += einsum("ijak->kija", v.oovo) * 0.25
    .add 40 (.ein [(16, [0, 1, 2, 3])] [3, 0, 1, 2]) 1 4,
    -- 682: l1new = np.zeros((nvir, nocc), dtype=types[float])
    .zeros 87 [1, 0],
    -- 683: l1new += einsum("abij,jkia->bk", l2, x20) * 4
    .add 87 (.ein [(11, [0, 1, 2, 3]), (40, [3, 4, 2, 0])] [1, 4]) 4 1,
    -- 684: del x20
    .del 40,
    -- 685: x21 = np.zeros((nocc, nocc, nvir, nvir), dtype=types[float])
    .zeros 88 [0, 0, 1, 1],
    -- 686: x21 -= einsum("ijab->jiab", t2)
    .add 88 (.ein [(6, [0, 1, 2, 3])] [1, 0, 2, 3]) (-1) 1,
    -- 687: x21 += einsum("ijab->jiba", t2) * 2
    .add 88 (.ein [(6, [0, 1, 2, 3])] [1, 0, 3, 2]) 2 1,
    -- 688: x22 = np.zeros((nocc, nocc, nvir, nvir), dtype=types[float])
    .zeros 89 [0, 0, 1, 1],
    -- 689: x22 -= einsum("abij,ikac->jkbc", l2, x21)
    .add 89 (.ein [(11, [0, 1, 2, 3]), (88, [2, 4, 0, 5])] [3, 4, 1, 5]) (-1) 1,
    -- 690: del x21
    .del 88,
    -- 691: x22 += einsum("abij,jkac->ikbc", l2, t2)
    .add 89 (.ein [(11, [0, 1, 2, 3]), (6, [3, 4, 0, 5])] [2, 4, 1, 5]) 1 1,
    -- 692: x23 = np.zeros((nocc, nvir, nvir, nvir), dtype=types[float])
    .zeros 90 [0, 1, 1, 1],
    -- 693: x23 -= einsum("iabc->ibca", v.ovvv)
    .add 90 (.ein [(7, [0, 1, 2, 3])] [0, 2, 3, 1]) (-1) 1,
    -- 694: x23 += einsum("iabc->ibac", v.ovvv) * 2
    .add 90 (.ein [(7, [0, 1, 2, 3])] [0, 2, 1, 3]) 2 1,
    -- 695: l1new -= einsum("ijab,jabc->ci", x22, x23)
    .add 87 (.ein [(89, [0, 1, 2, 3]), (90, [1, 2, 3, 4])] [4, 0]) (-1) 1,
    -- 696: del x22
    .del 89,
    -- 697: del x23
    .del 90,
    -- 698: x24 -= einsum("ijka->jika", v.ooov)
    .add 53 (.ein [(12, [0, 1, 2, 3])] [1, 0, 2, 3]) (-1) 1,
    -- 699: x24 += einsum("ijka->jkia", v.ooov) * 2
    .add 53 (.ein [(12, [0, 1, 2, 3])] [1, 2, 0, 3]) 2 1,
    -- 700: x28 += einsum("ijab,kila->kljb", t2, x24)
    .add 85 (.ein [(6, [0, 1, 2, 3]), (53, [4, 0, 5, 2])] [4, 5, 1, 3]) 1 1,
    -- 701: del x24
    .del 53,
    -- 702: x25 += einsum("ijka->jika", v.ooov) * 2
    .add 54 (.ein [(12, [0, 1, 2, 3])] [1, 0, 2, 3]) 2 1,
    -- 703: x25 -= einsum("ijka->jkia", v.ooov)
    .add 54 (.ein [(12, [0, 1, 2, 3])] [1, 2, 0, 3]) (-1) 1,
    -- 704: x28 += einsum("ijab,kilb->klja", t2, x25)
    .add 85 (.ein [(6, [0, 1, 2, 3]), (54, [4, 0, 5, 3])] [4, 5, 1, 2]) 1 1,
    -- 705: del x25
    .del 54,
    -- 706: x26 = np.zeros((nocc, nocc, nvir, nvir), dtype=types[float])
    .zeros 91 [0, 0, 1, 1],
    -- 707: x26 -= einsum("iabj->ijba", v.ovvo)
    .add 91 (.ein [(13, [0, 1, 2, 3])] [0, 3, 2, 1]) (-1) 1,
    -- 708: x26 += einsum("ijab->ijab", v.oovv) * 2
    .add 91 (.ein [(14, [0, 1, 2, 3])] [0, 1, 2, 3]) 2 1,
    -- 709: x28 -= einsum("ia,jkba->ijkb", t1, x26)
    .add 85 (.ein [(8, [0, 1]), (91, [2, 3, 4, 1])] [0, 2, 3, 4]) (-1) 1,
    -- 710: del x26
    .del 91,
    -- 711: l1new += einsum("abij,jkib->ak", l2, x28)
    .add 87 (.ein [(11, [0, 1, 2, 3]), (85, [3, 4, 2, 1])] [0, 4]) 1 1,
    -- 712: del x28
    .del 85,
    -- 713: x29 = np.zeros((nocc, nvir, nvir, nvir), dtype=types[float])
    .zeros 92 [0, 1, 1, 1],
    -- 714: x29 += einsum("ia,bacd->icbd", t1, v.vvvv)
    .add 92 (.ein [(8, [0, 1]), (17, [2, 1, 3, 4])] [0, 3, 2, 4]) 1 1,
    -- 715: x30 = np.zeros((nocc, nvir, nvir, nvir), dtype=types[float])
    .zeros 93 [0, 1, 1, 1],
    -- 716: x30 += einsum("iabc->iabc", x29)
    .add 93 (.ein [(92, [0, 1, 2, 3])] [0, 1, 2, 3]) 1 1,
    -- 717: x30 += einsum("iabc->ibac", x29) * -0.5
    .add 93 (.ein [(92, [0, 1, 2, 3])] [0, 2, 1, 3]) (-1) 2,
    -- 718: del x29
    .del 92,
    -- 719: x30 += einsum("aibc->iabc", v.vovv) * -0.5
    .add 93 (.ein [(18, [0, 1, 2, 3])] [1, 0, 2, 3]) (-1) 2,
    -- 720: x30 += einsum("aibc->ibac", v.vovv)
    .add 93 (.ein [(18, [0, 1, 2, 3])] [1, 2, 0, 3]) 1 1,
    -- 721: l1new += einsum("abij,ibac->cj", l2, x30) * 2
    .add 87 (.ein [(11, [0, 1, 2, 3]), (93, [2, 1, 0, 4])] [4, 3]) 2 1,
    -- 722: del x30
    .del 93,
    -- 723: x31 = np.zeros((nocc, nocc, nocc, nvir), dtype=types[float])
    .zeros 94 [0, 0, 0, 1],
    -- 724: x31 += einsum("ia,abjk->kjib", t1, l2)
    .add 94 (.ein [(8, [0, 1]), (11, [1, 2, 3, 4])] [4, 3, 0, 2]) 1 1,
    -- 725: x32 = np.zeros((nocc, nocc, nocc, nvir), dtype=types[float])
    .zeros 95 [0, 0, 0, 1],
    -- 726: x32 += einsum("ijka->ijka", x31) * 2
    .add 95 (.ein [(94, [0, 1, 2, 3])] [0, 1, 2, 3]) 2 1,
    -- 727: x32 += einsum("ijka->jika", x31) * -1
    .add 95 (.ein [(94, [0, 1, 2, 3])] [1, 0, 2, 3]) (-1) 1,
    -- 728: x34 += einsum("ijab,ikla->kljb", t2, x32) * -0.5
    .add 67 (.ein [(6, [0, 1, 2, 3]), (95, [0, 4, 5, 2])] [4, 5, 1, 3]) (-1) 2,
    -- 729: del x32
    .del 95,
    -- 730: x34 += einsum("ijab,jkla->klib", t2, x31) * 0.5
    .add 67 (.ein [(6, [0, 1, 2, 3]), (94, [1, 4, 5, 2])] [4, 5, 0, 3]) 1 2,
    -- 731: x36 = np.zeros((nocc, nocc, nocc, nvir), dtype=types[float])
    .zeros 96 [0, 0, 0, 1],
    -- 732: x36 -= einsum("ijka->ijka", x31)
    .add 96 (.ein [(94, [0, 1, 2, 3])] [0, 1, 2, 3]) (-1) 1,
    -- 733: x36 += einsum("ijka->jika", x31) * 2
    .add 96 (.ein [(94, [0, 1, 2, 3])] [1, 0, 2, 3]) 2 1,
    -- 734: x37 = np.zeros((nocc, nocc, nvir, nvir), dtype=types[float])
    .zeros 97 [0, 0, 1, 1],
    -- 735: x37 += einsum("ia,ijkb->jkba", t1, x36)
    .add 97 (.ein [(8, [0, 1]), (96, [0, 2, 3, 4])] [2, 3, 4, 1]) 1 1,
    -- 736: l1new -= einsum("iabc,jiba->cj", v.ovvv, x37)
    .add 87 (.ein [(7, [0, 1, 2, 3]), (97, [4, 0, 2, 1])] [3, 4]) (-1) 1,
    -- 737: del x37
    .del 97,
    -- 738: l1new -= einsum("iabj,kjib->ak", v.ovvo, x36)
    .add 87 (.ein [(13, [0, 1, 2, 3]), (96, [4, 3, 0, 2])] [1, 4]) (-1) 1,
    -- 739: del x36
    .del 96,
    -- 740: x38 = np.zeros((nocc, nocc, nocc, nvir), dtype=types[float])
    .zeros 98 [0, 0, 0, 1],
    -- 741: x38 += einsum("ijka->ijka", x31) * 2
    .add 98 (.ein [(94, [0, 1, 2, 3])] [0, 1, 2, 3]) 2 1,
    -- 742: x38 -= einsum("ijka->jika", x31)
    .add 98 (.ein [(94, [0, 1, 2, 3])] [1, 0, 2, 3]) (-1) 1,
    -- 743: x39 = np.zeros((nocc, nocc, nvir, nvir), dtype=types[float])
    .zeros 99 [0, 0, 1, 1],
    -- 744: x39 += einsum("ia,ijkb->jkba", t1, x38)
    .add 99 (.ein [(8, [0, 1]), (98, [0, 2, 3, 4])] [2, 3, 4, 1]) 1 1,
    -- 745: l1new -= einsum("iabc,jibc->aj", v.ovvv, x39)
    .add 87 (.ein [(7, [0, 1, 2, 3]), (99, [4, 0, 2, 3])] [1, 4]) (-1) 1,
    -- 746: del x39
    .del 99,
    -- 747: x157 = np.zeros((nocc, nocc, nvir, nvir), dtype=types[float])
    .zeros 100 [0, 0, 1, 1],
    -- 748: x157 += einsum("ijka,jlkb->liba", x38, x7)
    .add 100 (.ein [(98, [0, 1, 2, 3]), (49, [1, 4, 2, 5])] [4, 0, 5, 3]) 1 1,
    -- 749: x169 = np.zeros((nocc, nocc, nvir, nvir), dtype=types[float])
    .zeros 101 [0, 0, 1, 1],
    -- 750: x169 -= einsum("ijab->jiba", x157)
    .add 101 (.ein [(100, [0, 1, 2, 3])] [1, 0, 3, 2]) (-1) 1,
    -- 751: del x157
    .del 100,
    -- 752: l1new -= einsum("ijab,kjia->bk", v.oovv, x38)
    .add 87 (.ein [(14, [0, 1, 2, 3]), (98, [4, 1, 0, 2])] [3, 4]) (-1) 1,
    -- 753: del x38
    .del 98,
    -- 754: x42 = np.zeros((nocc, nocc, nocc, nvir), dtype=types[float])
    .zeros 102 [0, 0, 0, 1],
    -- 755: x42 += einsum("ijab,kjla->klib", t2, x31)
    .add 102 (.ein [(6, [0, 1, 2, 3]), (94, [4, 1, 5, 2])] [4, 5, 0, 3]) 1 1,
    -- 756: x45 = np.zeros((nocc, nocc, nocc, nvir), dtype=types[float])
    .zeros 103 [0, 0, 0, 1],
    -- 757: x45 += einsum("ijka->ijka", x42)
    .add 103 (.ein [(102, [0, 1, 2, 3])] [0, 1, 2, 3]) 1 1,
    -- 758: x49 = np.zeros((nocc, nocc, nocc, nvir), dtype=types[float])
    .zeros 104 [0, 0, 0, 1],
    -- 759: x49 += einsum("ijka->ijka", x42)
    .add 104 (.ein [(102, [0, 1, 2, 3])] [0, 1, 2, 3]) 1 1,
    -- 760: del x42
    .del 102,
    -- 761: x47 = np.zeros((nocc, nocc, nocc, nocc), dtype=types[float])
    .zeros 105 [0, 0, 0, 0],
    -- 762: x47 += einsum("ia,jkla->kjli", t1, x31)
    .add 105 (.ein [(8, [0, 1]), (94, [2, 3, 4, 1])] [3, 2, 4, 0]) 1 1,
    -- 763: x48 = np.zeros((nocc, nocc, nocc, nvir), dtype=types[float])
    .zeros 106 [0, 0, 0, 1],
    -- 764: x48 += einsum("ia,ijkl->jlka", t1, x47)
    .add 106 (.ein [(8, [0, 1]), (105, [0, 2, 3, 4])] [2, 4, 3, 1]) 1 1,
    -- 765: x49 += einsum("ijka->ijka", x48) * -2.0000000000000013
    .add 104 (.ein [(106, [0, 1, 2, 3])] [0, 1, 2, 3]) (-2) 1,
    -- 766: x49 += einsum("ijka->ikja", x48)
    .add 104 (.ein [(106, [0, 1, 2, 3])] [0, 2, 1, 3]) 1 1,
    -- 767: del x48
    .del 106,
    -- 768: x51 = np.zeros((nocc, nocc, nocc, nocc), dtype=types[float])
    .zeros 107 [0, 0, 0, 0],
    -- 769: x51 += einsum("ijkl->ijkl", x47)
    .add 107 (.ein [(105, [0, 1, 2, 3])] [0, 1, 2, 3]) 1 1,
    -- 770: x51 += einsum("ijkl->ijlk", x47) * -0.5
    .add 107 (.ein [(105, [0, 1, 2, 3])] [0, 1, 3, 2]) (-1) 2,
    -- 771: l1new += einsum("ijka,ljki->al", v.ooov, x51) * 2
    .add 87 (.ein [(12, [0, 1, 2, 3]), (107, [4, 1, 2, 0])] [3, 4]) 2 1,
    -- 772: del x51
    .del 107,
    -- 773: l2new += einsum("iajb,klij->abkl", v.ovov, x47)
    .add 78 (.ein [(9, [0, 1, 2, 3]), (105, [4, 5, 0, 2])] [1, 3, 4, 5]) 1 1,
    -- 774: del x47
    .del 105,
    -- 775: x81 = np.zeros((nocc, nvir), dtype=types[float])
    .zeros 108 [0, 1],
    -- 776: x81 += einsum("ijab,ijkb->ka", x16, x31)
    .add 108 (.ein [(65, [0, 1, 2, 3]), (94, [0, 1, 4, 3])] [4, 2]) 1 1,
    -- 777: x89 = np.zeros((nocc, nvir), dtype=types[float])
    .zeros 109 [0, 1],
    -- 778: x89 += einsum("ia->ia", x81)
    .add 109 (.ein [(108, [0, 1])] [0, 1]) 1 1,
    -- 779: del x81
    .del 108,
    -- 780: x127 = np.zeros((nocc, nocc, nvir, nvir), dtype=types[float])
    .zeros 110 [0, 0, 1, 1],
    -- 781: x127 += einsum("ijka,jlkb->liba", v.ooov, x31)
    .add 110 (.ein [(12, [0, 1, 2, 3]), (94, [1, 4, 2, 5])] [4, 0, 5, 3]) 1 1,
    -- 782: x143 -= einsum("ijab->ijab", x127)
    .add 57 (.ein [(110, [0, 1, 2, 3])] [0, 1, 2, 3]) (-1) 1,
    -- 783: del x127
    .del 110,
    -- 784: x129 = np.zeros((nocc, nocc, nvir, nvir), dtype=types[float])
    .zeros 111 [0, 0, 1, 1],
    -- 785: x129 += einsum("ijka,iklb->jlab", x31, x7)
    .add 111 (.ein [(94, [0, 1, 2, 3]), (49, [0, 2, 4, 5])] [1, 4, 3, 5]) 1 1,
    -- 786: x143 -= einsum("ijab->ijab", x129)
    .add 57 (.ein [(111, [0, 1, 2, 3])] [0, 1, 2, 3]) (-1) 1,
    -- 787: del x129
    .del 111,
    -- 788: x146 = np.zeros((nocc, nocc, nvir, nvir), dtype=types[float])
    .zeros 112 [0, 0, 1, 1],
    -- 789: x146 += einsum("ijka,jlib->lkba", v.ooov, x31)
    .add 112 (.ein [(12, [0, 1, 2, 3]), (94, [1, 4, 0, 5])] [4, 2, 5, 3]) 1 1,
    -- 790: x169 += einsum("ijab->ijab", x146)
    .add 101 (.ein [(112, [0, 1, 2, 3])] [0, 1, 2, 3]) 1 1,
    -- 791: del x146
    .del 112,
    -- 792: x147 = np.zeros((nocc, nocc, nvir, nvir), dtype=types[float])
    .zeros 113 [0, 0, 1, 1],
    -- 793: x147 += einsum("iabc,jkib->kjac", v.ovvv, x31)
    .add 113 (.ein [(7, [0, 1, 2, 3]), (94, [4, 5, 0, 2])] [5, 4, 1, 3]) 1 1,
    -- 794: x169 -= einsum("ijab->ijab", x147)
    .add 101 (.ein [(113, [0, 1, 2, 3])] [0, 1, 2, 3]) (-1) 1,
    -- 795: del x147
    .del 113,
    -- 796: x148 = np.zeros((nocc, nocc, nvir, nvir), dtype=types[float])
    .zeros 114 [0, 0, 1, 1],
    -- 797: x148 += einsum("ijka,jklb->ilab", x31, x7)
    .add 114 (.ein [(94, [0, 1, 2, 3]), (49, [1, 2, 4, 5])] [0, 4, 3, 5]) 1 1,
    -- 798: del x7
    .del 49,
    -- 799: x169 += einsum("ijab->ijab", x148)
    .add 101 (.ein [(114, [0, 1, 2, 3])] [0, 1, 2, 3]) 1 1,
    -- 800: del x148
    .del 114,
    -- 801: x35 = np.zeros((nocc, nocc, nvir, nvir), dtype=types[float])
    .zeros 115 [0, 0, 1, 1],
    -- 802: x35 -= einsum("iajb->jiab", v.ovov)
    .add 115 (.ein [(9, [0, 1, 2, 3])] [2, 0, 1, 3]) (-1) 1,
    -- 803: x35 += einsum("iajb->jiba", v.ovov) * 2
    .add 115 (.ein [(9, [0, 1, 2, 3])] [2, 0, 3, 1]) 2 1,
    -- 804: l1new += einsum("ijka,kjab->bi", x34, x35) * 2
    .add 87 (.ein [(67, [0, 1, 2, 3]), (115, [2, 1, 3, 4])] [4, 0]) 2 1,
    -- 805: del x34
    .del 67,
    -- 806: x40 = np.zeros((nocc, nocc, nvir, nvir), dtype=types[float])
    .zeros 116 [0, 0, 1, 1],
    -- 807: x40 += einsum("abij,jkca->ikbc", l2, t2)
    .add 116 (.ein [(11, [0, 1, 2, 3]), (6, [3, 4, 5, 0])] [2, 4, 1, 5]) 1 1,
    -- 808: x41 = np.zeros((nocc, nvir, nvir, nvir), dtype=types[float])
    .zeros 117 [0, 1, 1, 1],
    -- 809: x41 += einsum("iabc->ibca", v.ovvv) * 2
    .add 117 (.ein [(7, [0, 1, 2, 3])] [0, 2, 3, 1]) 2 1,
    -- 810: x41 -= einsum("iabc->ibac", v.ovvv)
    .add 117 (.ein [(7, [0, 1, 2, 3])] [0, 2, 1, 3]) (-1) 1,
    -- 811: x104 = np.zeros((nbos, nvir, nvir), dtype=types[float])
    .zeros 118 [2, 1, 1],
    -- 812: x104 += einsum("wia,ibca->wbc", u11, x41)
    .add 118 (.ein [(19, [0, 1, 2]), (117, [1, 3, 4, 2])] [0, 3, 4]) 1 1,
    -- 813: x115 = np.zeros((nvir, nvir), dtype=types[float])
    .zeros 119 [1, 1],
    -- 814: x115 += einsum("ia,ibca->bc", t1, x41)
    .add 119 (.ein [(8, [0, 1]), (117, [0, 2, 3, 1])] [2, 3]) 1 1,
    -- 815: x116 = np.zeros((nvir, nvir), dtype=types[float])
    .zeros 120 [1, 1],
    -- 816: x116 += einsum("ab->ab", x115)
    .add 120 (.ein [(119, [0, 1])] [0, 1]) 1 1,
    -- 817: x164 = np.zeros((nocc, nocc, nvir, nvir), dtype=types[float])
    .zeros 121 [0, 0, 1, 1],
    -- 818: x164 += einsum("ab,acij->ijcb", x115, l2)
    .add 121 (.ein [(119, [0, 1]), (11, [0, 2, 3, 4])] [3, 4, 2, 1]) 1 1,
    -- 819: del x115
    .del 119,
    -- 820: x169 += einsum("ijab->jiab", x164)
    .add 101 (.ein [(121, [0, 1, 2, 3])] [1, 0, 2, 3]) 1 1,
    -- 821: del x164
    .del 121,
    -- 822: l1new -= einsum("ijab,jabc->ci", x40, x41)
    .add 87 (.ein [(116, [0, 1, 2, 3]), (117, [1, 2, 3, 4])] [4, 0]) (-1) 1,
    -- 823: del x40
    .del 116,
    -- 824: del x41
    .del 117,
    -- 825: x43 = np.zeros((nocc, nocc, nocc, nocc), dtype=types[float])
    .zeros 122 [0, 0, 0, 0],
    -- 826: x43 += einsum("abij,klab->ijkl", l2, t2)
    .add 122 (.ein [(11, [0, 1, 2, 3]), (6, [4, 5, 0, 1])] [2, 3, 4, 5]) 1 1,
    -- 827: x44 = np.zeros((nocc, nocc, nocc, nvir), dtype=types[float])
    .zeros 123 [0, 0, 0, 1],
    -- 828: x44 += einsum("ia,jikl->jkla", t1, x43)
    .add 123 (.ein [(8, [0, 1]), (122, [2, 0, 3, 4])] [2, 3, 4, 1]) 1 1,
    -- 829: x45 += einsum("ijka->ijka", x44) * -0.5
    .add 103 (.ein [(123, [0, 1, 2, 3])] [0, 1, 2, 3]) (-1) 2,
    -- 830: x45 += einsum("ijka->ikja", x44)
    .add 103 (.ein [(123, [0, 1, 2, 3])] [0, 2, 1, 3]) 1 1,
    -- 831: del x44
    .del 123,
    -- 832: l1new += einsum("iajb,kjib->ak", v.ovov, x45) * 2
    .add 87 (.ein [(9, [0, 1, 2, 3]), (103, [4, 2, 0, 3])] [1, 4]) 2 1,
    -- 833: del x45
    .del 103,
    -- 834: x50 = np.zeros((nocc, nocc, nocc, nocc), dtype=types[float])
    .zeros 124 [0, 0, 0, 0],
    -- 835: x50 += einsum("ijkl->jikl", x43) * -0.5
    .add 124 (.ein [(122, [0, 1, 2, 3])] [1, 0, 2, 3]) (-1) 2,
    -- 836: x50 += einsum("ijkl->jilk", x43)
    .add 124 (.ein [(122, [0, 1, 2, 3])] [1, 0, 3, 2]) 1 1,
    -- 837: l1new += einsum("ijka,jlik->al", v.ooov, x50) * 2
    .add 87 (.ein [(12, [0, 1, 2, 3]), (124, [1, 4, 0, 2])] [3, 4]) 2 1,
    -- 838: del x50
    .del 124,
    -- 839: l2new += einsum("iajb,klij->balk", v.ovov, x43)
    .add 78 (.ein [(9, [0, 1, 2, 3]), (122, [4, 5, 0, 2])] [3, 1, 5, 4]) 1 1,
    -- 840: del x43
    .del 122,
    -- 841: x46 = np.zeros((nocc, nocc, nocc, nvir), dtype=types[float])
    .zeros 125 [0, 0, 0, 1],
    -- 842: x46 += einsum("ai,jkab->ikjb", l1, t2)
    .add 125 (.ein [(10, [0, 1]), (6, [2, 3, 0, 4])] [1, 3, 2, 4]) 1 1,
    -- 843: x49 += einsum("ijka->ijka", x46) * -1
    .add 104 (.ein [(125, [0, 1, 2, 3])] [0, 1, 2, 3]) (-1) 1,
    -- 844: x49 += einsum("ijka->ikja", x46) * 2
    .add 104 (.ein [(125, [0, 1, 2, 3])] [0, 2, 1, 3]) 2 1,
    -- 845: del x46
    .del 125,
    -- 846: l1new += einsum("iajb,kjia->bk", v.ovov, x49) * -1
    .add 87 (.ein [(9, [0, 1, 2, 3]), (104, [4, 2, 0, 1])] [3, 4]) (-1) 1,
    -- 847: del x49
    .del 104,
    -- 848: x52 = np.zeros((nocc, nvir), dtype=types[float])
    .zeros 126 [0, 1],
    -- 849: x52 += einsum("w,wai->ia", s1, g.bvo)
    .add 126 (.ein [(4, [0]), (1, [0, 1, 2])] [2, 1]) 1 1,
    -- 850: x76 += einsum("ia->ia", x52) * 0.5
    .add 70 (.ein [(126, [0, 1])] [0, 1]) 1 2,
    -- 851: x179 += einsum("ia->ia", x52)
    .add 80 (.ein [(126, [0, 1])] [0, 1]) 1 1,
    -- 852: del x52
    .del 126,
    -- 853: x53 = np.zeros((nocc, nvir), dtype=types[float])
    .zeros 127 [0, 1],
    -- 854: x53 += einsum("wab,wib->ia", g.bvv, u11)
    .add 127 (.ein [(3, [0, 1, 2]), (19, [0, 3, 2])] [3, 1]) 1 1,
    -- 855: x76 += einsum("ia->ia", x53) * 0.5
    .add 70 (.ein [(127, [0, 1])] [0, 1]) 1 2,
    -- 856: x179 += einsum("ia->ia", x53)
    .add 80 (.ein [(127, [0, 1])] [0, 1]) 1 1,
    -- 857: del x53
    .del 127,
    -- 858: x54 = np.zeros((nocc, nvir), dtype=types[float])
    .zeros 128 [0, 1],
    -- 859: x54 += einsum("ijab,ikja->kb", t2, v.ooov)
    .add 128 (.ein [(6, [0, 1, 2, 3]), (12, [0, 4, 1, 2])] [4, 3]) 1 1,
    -- 860: x76 += einsum("ia->ia", x54) * 0.5
    .add 70 (.ein [(128, [0, 1])] [0, 1]) 1 2,
    -- 861: x179 += einsum("ia->ia", x54)
    .add 80 (.ein [(128, [0, 1])] [0, 1]) 1 1,
    -- 862: del x54
    .del 128,
    -- 863: x55 += einsum("ijka->ikja", v.ooov) * 2
    .add 55 (.ein [(12, [0, 1, 2, 3])] [0, 2, 1, 3]) 2 1,
    -- 864: x76 += einsum("ijab,ijkb->ka", t2, x55) * -0.5
    .add 70 (.ein [(6, [0, 1, 2, 3]), (55, [0, 1, 4, 3])] [4, 2]) (-1) 2,
    -- 865: x179 += einsum("ijab,ijkb->ka", t2, x55) * -1
    .add 80 (.ein [(6, [0, 1, 2, 3]), (55, [0, 1, 4, 3])] [4, 2]) (-1) 1,
    -- 866: del x55
    .del 55,
    -- 867: x57 += einsum("ia->ia", f.ov)
    .add 35 (.ein [(5, [0, 1])] [0, 1]) 1 1,
    -- 868: x76 += einsum("ia,ijba->jb", x57, x16)
    .add 70 (.ein [(35, [0, 1]), (65, [0, 2, 3, 1])] [2, 3]) 1 1,
    -- 869: x179 += einsum("ia,ijba->jb", x57, x16) * 2
    .add 80 (.ein [(35, [0, 1]), (65, [0, 2, 3, 1])] [2, 3]) 2 1,
    -- 870: del x16
    .del 65,
    -- 871: lu11new = np.zeros((nbos, nvir, nocc), dtype=types[float])
    .zeros 129 [2, 1, 0],
    -- 872: lu11new += einsum("w,ia->wai", ls1, x57) * 2
    .add 129 (.ein [(20, [0]), (35, [1, 2])] [0, 2, 1]) 2 1,
    -- 873: del x57
    .del 35,
    -- 874: x58 = np.zeros((nocc, nocc, nvir, nvir), dtype=types[float])
    .zeros 130 [0, 0, 1, 1],
    -- 875: x58 += einsum("iabj->ijba", v.ovvo)
    .add 130 (.ein [(13, [0, 1, 2, 3])] [0, 3, 2, 1]) 1 1,
    -- 876: x58 += einsum("ijab->ijab", v.oovv) * -0.5
    .add 130 (.ein [(14, [0, 1, 2, 3])] [0, 1, 2, 3]) (-1) 2,
    -- 877: x76 += einsum("ia,ijba->jb", t1, x58)
    .add 70 (.ein [(8, [0, 1]), (130, [0, 2, 3, 1])] [2, 3]) 1 1,
    -- 878: x179 += einsum("ia,ijba->jb", t1, x58) * 2
    .add 80 (.ein [(8, [0, 1]), (130, [0, 2, 3, 1])] [2, 3]) 2 1,
    -- 879: del x58
    .del 130,
    -- 880: x59 = np.zeros((nbos, nocc, nocc), dtype=types[float])
    .zeros 131 [2, 0, 0],
    -- 881: x59 += einsum("ia,wja->wji", t1, g.bov)
    .add 131 (.ein [(8, [0, 1]), (2, [2, 3, 1])] [2, 3, 0]) 1 1,
    -- 882: x60 = np.zeros((nbos, nocc, nocc), dtype=types[float])
    .zeros 132 [2, 0, 0],
    -- 883: x60 += einsum("wij->wij", x59)
    .add 132 (.ein [(131, [0, 1, 2])] [0, 1, 2]) 1 1,
    -- 884: x110 = np.zeros((nbos, nocc, nocc), dtype=types[float])
    .zeros 133 [2, 0, 0],
    -- 885: x110 += einsum("wij->wij", x59)
    .add 133 (.ein [(131, [0, 1, 2])] [0, 1, 2]) 1 1,
    -- 886: del x59
    .del 131,
    -- 887: x60 += einsum("wij->wij", g.boo)
    .add 132 (.ein [(0, [0, 1, 2])] [0, 1, 2]) 1 1,
    -- 888: x76 += einsum("wia,wij->ja", u11, x60) * -0.5
    .add 70 (.ein [(19, [0, 1, 2]), (132, [0, 1, 3])] [3, 2]) (-1) 2,
    -- 889: x179 += einsum("wia,wij->ja", u11, x60) * -1
    .add 80 (.ein [(19, [0, 1, 2]), (132, [0, 1, 3])] [3, 2]) (-1) 1,
    -- 890: del x60
    .del 132,
    -- 891: x61 = np.zeros((nocc, nocc), dtype=types[float])
    .zeros 134 [0, 0],
    -- 892: x61 += einsum("w,wij->ij", s1, g.boo)
    .add 134 (.ein [(4, [0]), (0, [0, 1, 2])] [1, 2]) 1 1,
    -- 893: x69 = np.zeros((nocc, nocc), dtype=types[float])
    .zeros 135 [0, 0],
    -- 894: x69 += einsum("ij->ij", x61)
    .add 135 (.ein [(134, [0, 1])] [0, 1]) 1 1,
    -- 895: x138 = np.zeros((nocc, nocc), dtype=types[float])
    .zeros 136 [0, 0],
    -- 896: x138 += einsum("ij->ij", x61)
    .add 136 (.ein [(134, [0, 1])] [0, 1]) 1 1,
    -- 897: del x61
    .del 134,
    -- 898: x62 = np.zeros((nocc, nocc), dtype=types[float])
    .zeros 137 [0, 0],
    -- 899: x62 += einsum("wia,wja->ij", g.bov, u11)
    .add 137 (.ein [(2, [0, 1, 2]), (19, [0, 3, 2])] [1, 3]) 1 1,
    -- 900: x69 += einsum("ij->ij", x62)
    .add 135 (.ein [(137, [0, 1])] [0, 1]) 1 1,
    -- 901: x138 += einsum("ij->ij", x62)
    .add 136 (.ein [(137, [0, 1])] [0, 1]) 1 1,
    -- 902: del x62
    .del 137,
    -- 903: x63 = np.zeros((nocc, nocc, nvir, nvir), dtype=types[float])
    .zeros 138 [0, 0, 1, 1],
    -- 904: x63 += einsum("iajb->jiab", v.ovov) * -0.5
    .add 138 (.ein [(9, [0, 1, 2, 3])] [2, 0, 1, 3]) (-1) 2,
    -- 905: x63 += einsum("iajb->jiba", v.ovov)
    .add 138 (.ein [(9, [0, 1, 2, 3])] [2, 0, 3, 1]) 1 1,
    -- 906: x64 = np.zeros((nocc, nocc), dtype=types[float])
    .zeros 139 [0, 0],
    -- 907: x64 += einsum("ijab,ikab->jk", t2, x63) * 2
    .add 139 (.ein [(6, [0, 1, 2, 3]), (138, [0, 4, 2, 3])] [1, 4]) 2 1,
    -- 908: x69 += einsum("ij->ji", x64)
    .add 135 (.ein [(139, [0, 1])] [1, 0]) 1 1,
    -- 909: del x64
    .del 139,
    -- 910: x173 = np.zeros((nvir, nvir), dtype=types[float])
    .zeros 140 [1, 1],
    -- 911: x173 += einsum("ijab,ijcb->ac", t2, x63)
    .add 140 (.ein [(6, [0, 1, 2, 3]), (138, [0, 1, 4, 3])] [2, 4]) 1 1,
    -- 912: del x63
    .del 138,
    -- 913: x174 = np.zeros((nocc, nocc, nvir, nvir), dtype=types[float])
    .zeros 141 [0, 0, 1, 1],
    -- 914: x174 += einsum("ab,acij->ijcb", x173, l2) * 2
    .add 141 (.ein [(140, [0, 1]), (11, [0, 2, 3, 4])] [3, 4, 2, 1]) 2 1,
    -- 915: del x173
    .del 140,
    -- 916: x177 += einsum("ijab->jiab", x174)
    .add 64 (.ein [(141, [0, 1, 2, 3])] [1, 0, 2, 3]) 1 1,
    -- 917: del x174
    .del 141,
    -- 918: l2new += einsum("ijab->abij", x177) * -1
    .add 78 (.ein [(64, [0, 1, 2, 3])] [2, 3, 0, 1]) (-1) 1,
    -- 919: l2new += einsum("ijab->baji", x177) * -1
    .add 78 (.ein [(64, [0, 1, 2, 3])] [3, 2, 1, 0]) (-1) 1,
    -- 920: del x177
    .del 64,
    -- 921: x65 = np.zeros((nocc, nocc, nocc, nvir), dtype=types[float])
    .zeros 142 [0, 0, 0, 1],
    -- 922: x65 += einsum("ijka->ikja", v.ooov) * -0.5
    .add 142 (.ein [(12, [0, 1, 2, 3])] [0, 2, 1, 3]) (-1) 2,
    -- 923: x65 += einsum("ijka->kija", v.ooov)
    .add 142 (.ein [(12, [0, 1, 2, 3])] [2, 0, 1, 3]) 1 1,
    -- 924: x66 = np.zeros((nocc, nocc), dtype=types[float])
    .zeros 143 [0, 0],
    -- 925: x66 += einsum("ia,ijka->jk", t1, x65) * 2
    .add 143 (.ein [(8, [0, 1]), (142, [0, 2, 3, 1])] [2, 3]) 2 1,
    -- 926: del x65
    .del 142,
    -- 927: x69 += einsum("ij->ij", x66)
    .add 135 (.ein [(143, [0, 1])] [0, 1]) 1 1,
    -- 928: del x66
    .del 143,
    -- 929: x67 += einsum("ia->ia", f.ov) * 0.5
    .add 36 (.ein [(5, [0, 1])] [0, 1]) 1 2,
    -- 930: x68 = np.zeros((nocc, nocc), dtype=types[float])
    .zeros 144 [0, 0],
    -- 931: x68 += einsum("ia,ja->ij", t1, x67) * 2
    .add 144 (.ein [(8, [0, 1]), (36, [2, 1])] [0, 2]) 2 1,
    -- 932: del x67
    .del 36,
    -- 933: x69 += einsum("ij->ji", x68)
    .add 135 (.ein [(144, [0, 1])] [1, 0]) 1 1,
    -- 934: del x68
    .del 144,
    -- 935: x69 += einsum("ij->ij", f.oo)
    .add 135 (.ein [(21, [0, 1])] [0, 1]) 1 1,
    -- 936: x76 += einsum("ia,ij->ja", t1, x69) * -0.5
    .add 70 (.ein [(8, [0, 1]), (135, [0, 2])] [2, 1]) (-1) 2,
    -- 937: x179 += einsum("ia,ij->ja", t1, x69) * -1
    .add 80 (.ein [(8, [0, 1]), (135, [0, 2])] [2, 1]) (-1) 1,
    -- 938: l1new += einsum("ai,ji->aj", l1, x69) * -1
    .add 87 (.ein [(10, [0, 1]), (135, [2, 1])] [0, 2]) (-1) 1,
    -- 939: del x69
    .del 135,
    -- 940: x70 = np.zeros((nvir, nvir), dtype=types[float])
    .zeros 145 [1, 1],
    -- 941: x70 += einsum("w,wab->ab", s1, g.bvv)
    .add 145 (.ein [(4, [0]), (3, [0, 1, 2])] [1, 2]) 1 1,
    -- 942: x73 = np.zeros((nvir, nvir), dtype=types[float])
    .zeros 146 [1, 1],
    -- 943: x73 += einsum("ab->ab", x70)
    .add 146 (.ein [(145, [0, 1])] [0, 1]) 1 1,
    -- 944: x116 += einsum("ab->ab", x70)
    .add 120 (.ein [(145, [0, 1])] [0, 1]) 1 1,
    -- 945: x134 = np.zeros((nvir, nvir), dtype=types[float])
    .zeros 147 [1, 1],
    -- 946: x134 += einsum("ab->ab", x70)
    .add 147 (.ein [(145, [0, 1])] [0, 1]) 1 1,
    -- 947: del x70
    .del 145,
    -- 948: x71 = np.zeros((nocc, nvir, nvir, nvir), dtype=types[float])
    .zeros 148 [0, 1, 1, 1],
    -- 949: x71 += einsum("iabc->ibca", v.ovvv)
    .add 148 (.ein [(7, [0, 1, 2, 3])] [0, 2, 3, 1]) 1 1,
    -- 950: x71 += einsum("iabc->ibac", v.ovvv) * -0.5
    .add 148 (.ein [(7, [0, 1, 2, 3])] [0, 2, 1, 3]) (-1) 2,
    -- 951: x72 = np.zeros((nvir, nvir), dtype=types[float])
    .zeros 149 [1, 1],
    -- 952: x72 += einsum("ia,ibca->bc", t1, x71) * 2
    .add 149 (.ein [(8, [0, 1]), (148, [0, 2, 3, 1])] [2, 3]) 2 1,
    -- 953: del x71
    .del 148,
    -- 954: x73 += einsum("ab->ab", x72)
    .add 146 (.ein [(149, [0, 1])] [0, 1]) 1 1,
    -- 955: del x72
    .del 149,
    -- 956: x73 += einsum("ab->ab", f.vv)
    .add 146 (.ein [(22, [0, 1])] [0, 1]) 1 1,
    -- 957: x76 += einsum("ia,ba->ib", t1, x73) * 0.5
    .add 70 (.ein [(8, [0, 1]), (146, [2, 1])] [0, 2]) 1 2,
    -- 958: x179 += einsum("ia,ba->ib", t1, x73)
    .add 80 (.ein [(8, [0, 1]), (146, [2, 1])] [0, 2]) 1 1,
    -- 959: del x73
    .del 146,
    -- 960: x74 = np.zeros((nbos), dtype=types[float])
    .zeros 150 [2],
    -- 961: x74 += einsum("ia,wia->w", t1, g.bov)
    .add 150 (.ein [(8, [0, 1]), (2, [2, 0, 1])] [2]) 1 1,
    -- 962: x75 = np.zeros((nbos), dtype=types[float])
    .zeros 151 [2],
    -- 963: x75 += einsum("w->w", x74) * 2
    .add 151 (.ein [(150, [0])] [0]) 2 1,
    -- 964: x120 = np.zeros((nbos), dtype=types[float])
    .zeros 152 [2],
    -- 965: x120 += einsum("w->w", x74) * 2
    .add 152 (.ein [(150, [0])] [0]) 2 1,
    -- 966: del x74
    .del 150,
    -- 967: x75 += einsum("w->w", G)
    .add 151 (.ein [(23, [0])] [0]) 1 1,
    -- 968: x76 += einsum("w,wia->ia", x75, u11) * 0.5
    .add 70 (.ein [(151, [0]), (19, [0, 1, 2])] [1, 2]) 1 2,
    -- 969: x179 += einsum("w,wia->ia", x75, u11)
    .add 80 (.ein [(151, [0]), (19, [0, 1, 2])] [1, 2]) 1 1,
    -- 970: del x75
    .del 151,
    -- 971: x76 += einsum("ai->ia", f.vo) * 0.5
    .add 70 (.ein [(24, [0, 1])] [1, 0]) 1 2,
    -- 972: x77 = np.zeros((nocc, nocc, nvir, nvir), dtype=types[float])
    .zeros 153 [0, 0, 1, 1],
    -- 973: x77 += einsum("abij->jiab", l2) * -1
    .add 153 (.ein [(11, [0, 1, 2, 3])] [3, 2, 0, 1]) (-1) 1,
    -- 974: x77 += einsum("abij->jiba", l2) * 2
    .add 153 (.ein [(11, [0, 1, 2, 3])] [3, 2, 1, 0]) 2 1,
    -- 975: l1new += einsum("ia,ijab->bj", x76, x77) * 2
    .add 87 (.ein [(70, [0, 1]), (153, [0, 2, 1, 3])] [3, 2]) 2 1,
    -- 976: del x76
    .del 70,
    -- 977: del x77
    .del 153,
    -- 978: x78 = np.zeros((nocc, nvir), dtype=types[float])
    .zeros 154 [0, 1],
    -- 979: x78 += einsum("w,wia->ia", ls1, u11)
    .add 154 (.ein [(20, [0]), (19, [0, 1, 2])] [1, 2]) 1 1,
    -- 980: x89 += einsum("ia->ia", x78) * -0.5
    .add 109 (.ein [(154, [0, 1])] [0, 1]) (-1) 2,
    -- 981: del x78
    .del 154,
    -- 982: x79 = np.zeros((nbos, nocc, nocc), dtype=types[float])
    .zeros 155 [2, 0, 0],
    -- 983: x79 += einsum("ia,waj->wji", t1, lu11)
    .add 155 (.ein [(8, [0, 1]), (25, [2, 1, 3])] [2, 3, 0]) 1 1,
    -- 984: x80 = np.zeros((nocc, nvir), dtype=types[float])
    .zeros 156 [0, 1],
    -- 985: x80 += einsum("wia,wij->ja", u11, x79)
    .add 156 (.ein [(19, [0, 1, 2]), (155, [0, 1, 3])] [3, 2]) 1 1,
    -- 986: x89 += einsum("ia->ia", x80) * 0.5
    .add 109 (.ein [(156, [0, 1])] [0, 1]) 1 2,
    -- 987: del x80
    .del 156,
    -- 988: x82 = np.zeros((nocc, nocc, nvir, nvir), dtype=types[float])
    .zeros 157 [0, 0, 1, 1],
    -- 989: x82 += einsum("ijab->jiab", t2) * -1
    .add 157 (.ein [(6, [0, 1, 2, 3])] [1, 0, 2, 3]) (-1) 1,
    -- 990: x82 += einsum("ijab->jiba", t2) * 2
    .add 157 (.ein [(6, [0, 1, 2, 3])] [1, 0, 3, 2]) 2 1,
    -- 991: x83 = np.zeros((nocc, nvir), dtype=types[float])
    .zeros 158 [0, 1],
    -- 992: x83 += einsum("ai,ijab->jb", l1, x82) * 0.5
    .add 158 (.ein [(10, [0, 1]), (157, [1, 2, 0, 3])] [2, 3]) 1 2,
    -- 993: del x82
    .del 157,
    -- 994: x89 += einsum("ia->ia", x83) * -1
    .add 109 (.ein [(158, [0, 1])] [0, 1]) (-1) 1,
    -- 995: del x83
    .del 158,
    -- 996: x84 = np.zeros((nocc, nocc), dtype=types[float])
    .zeros 159 [0, 0],
    -- 997: x84 += einsum("ai,ja->ij", l1, t1)
    .add 159 (.ein [(10, [0, 1]), (8, [2, 0])] [1, 2]) 1 1,
    -- 998: x87 += einsum("ij->ij", x84) * 0.5
    .add 72 (.ein [(159, [0, 1])] [0, 1]) 1 2,
    -- 999: x95 += einsum("ij->ij", x84)
    .add 68 (.ein [(159, [0, 1])] [0, 1]) 1 1,
    -- 1000: x140 = np.zeros((nocc, nocc), dtype=types[float])
    .zeros 160 [0, 0],
    -- 1001: x140 += einsum("ij->ij", x84)
    .add 160 (.ein [(159, [0, 1])] [0, 1]) 1 1,
    -- 1002: x85 = np.zeros((nocc, nocc), dtype=types[float])
    .zeros 161 [0, 0],
    -- 1003: x85 += einsum("wai,wja->ij", lu11, u11)
    .add 161 (.ein [(25, [0, 1, 2]), (19, [0, 3, 1])] [2, 3]) 1 1,
    -- 1004: x87 += einsum("ij->ij", x85) * 0.5
    .add 72 (.ein [(161, [0, 1])] [0, 1]) 1 2,
    -- 1005: x88 = np.zeros((nocc, nvir), dtype=types[float])
    .zeros 162 [0, 1],
    -- 1006: x88 += einsum("ia,ij->ja", t1, x87)
    .add 162 (.ein [(8, [0, 1]), (72, [0, 2])] [2, 1]) 1 1,
    -- 1007: del x87
    .del 72,
    -- 1008: x89 += einsum("ia->ia", x88)
    .add 109 (.ein [(162, [0, 1])] [0, 1]) 1 1,
    -- 1009: del x88
    .del 162,
    -- 1010: x95 += einsum("ij->ij", x85)
    .add 68 (.ein [(161, [0, 1])] [0, 1]) 1 1,
    -- 1011: ls1new = np.zeros((nbos), dtype=types[float])
    .zeros 163 [2],
    -- 1012: ls1new += einsum("ij,wji->w", x95, g.boo) * -2
    .add 163 (.ein [(68, [0, 1]), (0, [2, 1, 0])] [2]) (-2) 1,
    -- 1013: x108 += einsum("ij->ij", x85)
    .add 69 (.ein [(161, [0, 1])] [0, 1]) 1 1,
    -- 1014: x109 = np.zeros((nbos, nocc, nocc), dtype=types[float])
    .zeros 164 [2, 0, 0],
    -- 1015: x109 += einsum("w,ij->wij", s1, x108)
    .add 164 (.ein [(4, [0]), (69, [1, 2])] [0, 1, 2]) 1 1,
    -- 1016: l1new += einsum("ia,ji->aj", f.ov, x108) * -1
    .add 87 (.ein [(5, [0, 1]), (69, [2, 0])] [1, 2]) (-1) 1,
    -- 1017: del x108
    .del 69,
    -- 1018: x140 += einsum("ij->ij", x85)
    .add 160 (.ein [(161, [0, 1])] [0, 1]) 1 1,
    -- 1019: x141 = np.zeros((nocc, nocc, nvir, nvir), dtype=types[float])
    .zeros 165 [0, 0, 1, 1],
    -- 1020: x141 += einsum("ij,jakb->kiab", x140, v.ovov)
    .add 165 (.ein [(160, [0, 1]), (9, [1, 2, 3, 4])] [3, 0, 2, 4]) 1 1,
    -- 1021: del x140
    .del 160,
    -- 1022: x143 += einsum("ijab->jiba", x141)
    .add 57 (.ein [(165, [0, 1, 2, 3])] [1, 0, 3, 2]) 1 1,
    -- 1023: del x141
    .del 165,
    -- 1024: x89 += einsum("ia->ia", t1) * -0.5
    .add 109 (.ein [(8, [0, 1])] [0, 1]) (-1) 2,
    -- 1025: l1new += einsum("ia,ijab->bj", x89, x35) * -2
    .add 87 (.ein [(109, [0, 1]), (115, [0, 2, 1, 3])] [3, 2]) (-2) 1,
    -- 1026: del x35
    .del 115,
    -- 1027: ls1new += einsum("ia,wia->w", x89, g.bov) * -4
    .add 163 (.ein [(109, [0, 1]), (2, [2, 0, 1])] [2]) (-4) 1,
    -- 1028: del x89
    .del 109,
    -- 1029: x90 = np.zeros((nvir, nvir), dtype=types[float])
    .zeros 166 [1, 1],
    -- 1030: x90 += einsum("ai,ib->ab", l1, t1)
    .add 166 (.ein [(10, [0, 1]), (8, [1, 2])] [0, 2]) 1 1,
    -- 1031: x93 += einsum("ab->ab", x90) * 0.5
    .add 76 (.ein [(166, [0, 1])] [0, 1]) 1 2,
    -- 1032: ls1new += einsum("ab,wab->w", x90, g.bvv) * 2
    .add 163 (.ein [(166, [0, 1]), (3, [2, 0, 1])] [2]) 2 1,
    -- 1033: del x90
    .del 166,
    -- 1034: x91 = np.zeros((nvir, nvir), dtype=types[float])
    .zeros 167 [1, 1],
    -- 1035: x91 += einsum("wai,wib->ab", lu11, u11)
    .add 167 (.ein [(25, [0, 1, 2]), (19, [0, 2, 3])] [1, 3]) 1 1,
    -- 1036: x93 += einsum("ab->ab", x91) * 0.5
    .add 76 (.ein [(167, [0, 1])] [0, 1]) 1 2,
    -- 1037: x126 = np.zeros((nocc, nocc, nvir, nvir), dtype=types[float])
    .zeros 168 [0, 0, 1, 1],
    -- 1038: x126 += einsum("ab,icjb->ijac", x91, v.ovov)
    .add 168 (.ein [(167, [0, 1]), (9, [2, 3, 4, 1])] [2, 4, 0, 3]) 1 1,
    -- 1039: x143 += einsum("ijab->ijab", x126)
    .add 57 (.ein [(168, [0, 1, 2, 3])] [0, 1, 2, 3]) 1 1,
    -- 1040: del x126
    .del 168,
    -- 1041: x180 += einsum("ab->ab", x91) * 0.5
    .add 79 (.ein [(167, [0, 1])] [0, 1]) 1 2,
    -- 1042: del x91
    .del 167,
    -- 1043: ls1new += einsum("ab,wab->w", x180, g.bvv) * 4
    .add 163 (.ein [(79, [0, 1]), (3, [2, 0, 1])] [2]) 4 1,
    -- 1044: del x180
    .del 79,
    -- 1045: x94 = np.zeros((nocc, nvir, nvir, nvir), dtype=types[float])
    .zeros 169 [0, 1, 1, 1],
    -- 1046: x94 += einsum("iabc->ibca", v.ovvv) * 2
    .add 169 (.ein [(7, [0, 1, 2, 3])] [0, 2, 3, 1]) 2 1,
    -- 1047: x94 += einsum("iabc->ibac", v.ovvv) * -1
    .add 169 (.ein [(7, [0, 1, 2, 3])] [0, 2, 1, 3]) (-1) 1,
    -- 1048: l1new += einsum("ab,iabc->ci", x93, x94) * 2
    .add 87 (.ein [(76, [0, 1]), (169, [2, 0, 1, 3])] [3, 2]) 2 1,
    -- 1049: del x93
    .del 76,
    -- 1050: del x94
    .del 169,
    -- 1051: x96 = np.zeros((nocc, nocc, nocc, nvir), dtype=types[float])
    .zeros 170 [0, 0, 0, 1],
    -- 1052: x96 += einsum("ijka->ikja", v.ooov) * 2
    .add 170 (.ein [(12, [0, 1, 2, 3])] [0, 2, 1, 3]) 2 1,
    -- 1053: x96 += einsum("ijka->kija", v.ooov) * -1
    .add 170 (.ein [(12, [0, 1, 2, 3])] [2, 0, 1, 3]) (-1) 1,
    -- 1054: l1new += einsum("ij,jkia->ak", x95, x96) * -1
    .add 87 (.ein [(68, [0, 1]), (170, [1, 2, 0, 3])] [3, 2]) (-1) 1,
    -- 1055: del x96
    .del 170,
    -- 1056: del x95
    .del 68,
    -- 1057: x97 = np.zeros((nocc, nocc, nocc, nvir), dtype=types[float])
    .zeros 171 [0, 0, 0, 1],
    -- 1058: x97 -= einsum("ijka->ikja", v.ooov)
    .add 171 (.ein [(12, [0, 1, 2, 3])] [0, 2, 1, 3]) (-1) 1,
    -- 1059: x97 += einsum("ijka->kija", v.ooov) * 2
    .add 171 (.ein [(12, [0, 1, 2, 3])] [2, 0, 1, 3]) 2 1,
    -- 1060: x103 = np.zeros((nbos, nocc, nocc), dtype=types[float])
    .zeros 172 [2, 0, 0],
    -- 1061: x103 += einsum("wia,ijka->wjk", u11, x97)
    .add 172 (.ein [(19, [0, 1, 2]), (171, [1, 3, 4, 2])] [0, 3, 4]) 1 1,
    -- 1062: x160 = np.zeros((nocc, nocc), dtype=types[float])
    .zeros 173 [0, 0],
    -- 1063: x160 += einsum("ia,ijka->jk", t1, x97)
    .add 173 (.ein [(8, [0, 1]), (171, [0, 2, 3, 1])] [2, 3]) 1 1,
    -- 1064: del x97
    .del 171,
    -- 1065: x162 = np.zeros((nocc, nocc), dtype=types[float])
    .zeros 174 [0, 0],
    -- 1066: x162 += einsum("ij->ij", x160)
    .add 174 (.ein [(173, [0, 1])] [0, 1]) 1 1,
    -- 1067: del x160
    .del 173,
    -- 1068: x98 = np.zeros((nocc, nocc, nvir, nvir), dtype=types[float])
    .zeros 175 [0, 0, 1, 1],
    -- 1069: x98 += einsum("iajb->jiab", v.ovov) * 2
    .add 175 (.ein [(9, [0, 1, 2, 3])] [2, 0, 1, 3]) 2 1,
    -- 1070: x98 -= einsum("iajb->jiba", v.ovov)
    .add 175 (.ein [(9, [0, 1, 2, 3])] [2, 0, 3, 1]) (-1) 1,
    -- 1071: x99 = np.zeros((nocc, nvir), dtype=types[float])
    .zeros 176 [0, 1],
    -- 1072: x99 += einsum("ia,ijba->jb", t1, x98)
    .add 176 (.ein [(8, [0, 1]), (175, [0, 2, 3, 1])] [2, 3]) 1 1,
    -- 1073: x100 += einsum("ia->ia", x99)
    .add 37 (.ein [(176, [0, 1])] [0, 1]) 1 1,
    -- 1074: x161 = np.zeros((nocc, nocc), dtype=types[float])
    .zeros 177 [0, 0],
    -- 1075: x161 += einsum("ia,ja->ij", t1, x99)
    .add 177 (.ein [(8, [0, 1]), (176, [2, 1])] [0, 2]) 1 1,
    -- 1076: x162 += einsum("ij->ji", x161)
    .add 174 (.ein [(177, [0, 1])] [1, 0]) 1 1,
    -- 1077: del x161
    .del 177,
    -- 1078: x163 = np.zeros((nocc, nocc, nvir, nvir), dtype=types[float])
    .zeros 178 [0, 0, 1, 1],
    -- 1079: x163 += einsum("ij,abjk->kiab", x162, l2)
    .add 178 (.ein [(174, [0, 1]), (11, [2, 3, 1, 4])] [4, 0, 2, 3]) 1 1,
    -- 1080: del x162
    .del 174,
    -- 1081: x169 -= einsum("ijab->ijba", x163)
    .add 101 (.ein [(178, [0, 1, 2, 3])] [0, 1, 3, 2]) (-1) 1,
    -- 1082: del x163
    .del 178,
    -- 1083: x167 = np.zeros((nocc, nocc, nvir, nvir), dtype=types[float])
    .zeros 179 [0, 0, 1, 1],
    -- 1084: x167 += einsum("ia,jkib->jkba", x99, x31)
    .add 179 (.ein [(176, [0, 1]), (94, [2, 3, 0, 4])] [2, 3, 4, 1]) 1 1,
    -- 1085: x169 -= einsum("ijab->ijab", x167)
    .add 101 (.ein [(179, [0, 1, 2, 3])] [0, 1, 2, 3]) (-1) 1,
    -- 1086: del x167
    .del 179,
    -- 1087: x169 += einsum("ai,jb->ijab", l1, x99)
    .add 101 (.ein [(10, [0, 1]), (176, [2, 3])] [1, 2, 0, 3]) 1 1,
    -- 1088: l1new -= einsum("ij,ja->ai", x85, x99)
    .add 87 (.ein [(161, [0, 1]), (176, [1, 2])] [2, 0]) (-1) 1,
    -- 1089: del x99
    .del 176,
    -- 1090: del x85
    .del 161,
    -- 1091: x101 = np.zeros((nbos, nocc, nvir), dtype=types[float])
    .zeros 180 [2, 0, 1],
    -- 1092: x101 += einsum("wia,ijba->wjb", u11, x98)
    .add 180 (.ein [(19, [0, 1, 2]), (175, [1, 3, 4, 2])] [0, 3, 4]) 1 1,
    -- 1093: del x98
    .del 175,
    -- 1094: x102 = np.zeros((nbos, nocc, nvir), dtype=types[float])
    .zeros 181 [2, 0, 1],
    -- 1095: x102 += einsum("wia->wia", x101)
    .add 181 (.ein [(180, [0, 1, 2])] [0, 1, 2]) 1 1,
    -- 1096: x114 = np.zeros((nbos, nocc, nvir), dtype=types[float])
    .zeros 182 [2, 0, 1],
    -- 1097: x114 += einsum("wia->wia", x101)
    .add 182 (.ein [(180, [0, 1, 2])] [0, 1, 2]) 1 1,
    -- 1098: x168 = np.zeros((nocc, nocc, nvir, nvir), dtype=types[float])
    .zeros 183 [0, 0, 1, 1],
    -- 1099: x168 += einsum("wai,wjb->ijab", lu11, x101)
    .add 183 (.ein [(25, [0, 1, 2]), (180, [0, 3, 4])] [2, 3, 1, 4]) 1 1,
    -- 1100: del x101
    .del 180,
    -- 1101: x169 += einsum("ijab->ijab", x168)
    .add 101 (.ein [(183, [0, 1, 2, 3])] [0, 1, 2, 3]) 1 1,
    -- 1102: del x168
    .del 183,
    -- 1103: x100 += einsum("ia->ia", f.ov)
    .add 37 (.ein [(5, [0, 1])] [0, 1]) 1 1,
    -- 1104: x103 += einsum("ia,wja->wij", x100, u11)
    .add 172 (.ein [(37, [0, 1]), (19, [2, 3, 1])] [2, 0, 3]) 1 1,
    -- 1105: x119 = np.zeros((nbos), dtype=types[float])
    .zeros 184 [2],
    -- 1106: x119 += einsum("ia,wia->w", x100, u11)
    .add 184 (.ein [(37, [0, 1]), (19, [2, 0, 1])] [2]) 1 1,
    -- 1107: x122 = np.zeros((nbos), dtype=types[float])
    .zeros 185 [2],
    -- 1108: x122 += einsum("w->w", x119) * 2
    .add 185 (.ein [(184, [0])] [0]) 2 1,
    -- 1109: del x119
    .del 184,
    -- 1110: l1new -= einsum("ia,ji->aj", x100, x84)
    .add 87 (.ein [(37, [0, 1]), (159, [2, 0])] [1, 2]) (-1) 1,
    -- 1111: del x100
    .del 37,
    -- 1112: del x84
    .del 159,
    -- 1113: x102 += einsum("wia->wia", gc.bov)
    .add 181 (.ein [(30, [0, 1, 2])] [0, 1, 2]) 1 1,
    -- 1114: x102 += einsum("wx,wia->xia", s2, g.bov)
    .add 181 (.ein [(26, [0, 1]), (2, [0, 2, 3])] [1, 2, 3]) 1 1,
    -- 1115: x103 += einsum("ia,wja->wji", t1, x102)
    .add 172 (.ein [(8, [0, 1]), (181, [2, 3, 1])] [2, 3, 0]) 1 1,
    -- 1116: del x102
    .del 181,
    -- 1117: x103 += einsum("wij->wij", gc.boo)
    .add 172 (.ein [(29, [0, 1, 2])] [0, 1, 2]) 1 1,
    -- 1118: x103 += einsum("wx,wij->xij", s2, g.boo)
    .add 172 (.ein [(26, [0, 1]), (0, [0, 2, 3])] [1, 2, 3]) 1 1,
    -- 1119: l1new -= einsum("wai,wji->aj", lu11, x103)
    .add 87 (.ein [(25, [0, 1, 2]), (172, [0, 3, 2])] [1, 3]) (-1) 1,
    -- 1120: del x103
    .del 172,
    -- 1121: x104 += einsum("wab->wab", gc.bvv)
    .add 118 (.ein [(32, [0, 1, 2])] [0, 1, 2]) 1 1,
    -- 1122: x104 += einsum("wx,wab->xab", s2, g.bvv)
    .add 118 (.ein [(26, [0, 1]), (3, [0, 2, 3])] [1, 2, 3]) 1 1,
    -- 1123: l1new += einsum("wai,wab->bi", lu11, x104)
    .add 87 (.ein [(25, [0, 1, 2]), (118, [0, 1, 3])] [3, 2]) 1 1,
    -- 1124: del x104
    .del 118,
    -- 1125: x105 = np.zeros((nbos, nocc, nvir), dtype=types[float])
    .zeros 186 [2, 0, 1],
    -- 1126: x105 += einsum("wx,xai->wia", s2, lu11)
    .add 186 (.ein [(26, [0, 1]), (25, [1, 2, 3])] [0, 3, 2]) 1 1,
    -- 1127: x107 = np.zeros((nbos, nocc, nvir), dtype=types[float])
    .zeros 187 [2, 0, 1],
    -- 1128: x107 += einsum("wia->wia", x105)
    .add 187 (.ein [(186, [0, 1, 2])] [0, 1, 2]) 1 1,
    -- 1129: x165 = np.zeros((nbos, nocc, nvir), dtype=types[float])
    .zeros 188 [2, 0, 1],
    -- 1130: x165 += einsum("wia->wia", x105)
    .add 188 (.ein [(186, [0, 1, 2])] [0, 1, 2]) 1 1,
    -- 1131: del x105
    .del 186,
    -- 1132: x106 = np.zeros((nocc, nocc, nvir, nvir), dtype=types[float])
    .zeros 189 [0, 0, 1, 1],
    -- 1133: x106 += einsum("abij->jiab", l2)
    .add 189 (.ein [(11, [0, 1, 2, 3])] [3, 2, 0, 1]) 1 1,
    -- 1134: x106 += einsum("abij->jiba", l2) * -0.5
    .add 189 (.ein [(11, [0, 1, 2, 3])] [3, 2, 1, 0]) (-1) 2,
    -- 1135: x107 += einsum("wia,ijba->wjb", u11, x106) * 2
    .add 187 (.ein [(19, [0, 1, 2]), (189, [1, 3, 4, 2])] [0, 3, 4]) 2 1,
    -- 1136: del x106
    .del 189,
    -- 1137: x109 += einsum("ia,wja->wji", t1, x107)
    .add 164 (.ein [(8, [0, 1]), (187, [2, 3, 1])] [2, 3, 0]) 1 1,
    -- 1138: del x107
    .del 187,
    -- 1139: x109 += einsum("ai,wja->wij", l1, u11)
    .add 164 (.ein [(10, [0, 1]), (19, [2, 3, 0])] [2, 1, 3]) 1 1,
    -- 1140: l1new += einsum("wia,wji->aj", g.bov, x109) * -1
    .add 87 (.ein [(2, [0, 1, 2]), (164, [0, 3, 1])] [2, 3]) (-1) 1,
    -- 1141: del x109
    .del 164,
    -- 1142: x110 += einsum("wij->wij", g.boo)
    .add 133 (.ein [(0, [0, 1, 2])] [0, 1, 2]) 1 1,
    -- 1143: x186 = np.zeros((nbos, nocc, nvir), dtype=types[float])
    .zeros 190 [2, 0, 1],
    -- 1144: x186 += einsum("ia,wij->wja", t1, x110)
    .add 190 (.ein [(8, [0, 1]), (133, [2, 0, 3])] [2, 3, 1]) 1 1,
    -- 1145: x187 = np.zeros((nbos, nocc, nvir), dtype=types[float])
    .zeros 191 [2, 0, 1],
    -- 1146: x187 -= einsum("wia->wia", x186)
    .add 191 (.ein [(190, [0, 1, 2])] [0, 1, 2]) (-1) 1,
    -- 1147: del x186
    .del 190,
    -- 1148: x111 = np.zeros((nocc, nocc, nvir, nvir), dtype=types[float])
    .zeros 192 [0, 0, 1, 1],
    -- 1149: x111 += einsum("abij->jiab", l2) * 2
    .add 192 (.ein [(11, [0, 1, 2, 3])] [3, 2, 0, 1]) 2 1,
    -- 1150: x111 -= einsum("abij->jiba", l2)
    .add 192 (.ein [(11, [0, 1, 2, 3])] [3, 2, 1, 0]) (-1) 1,
    -- 1151: x112 = np.zeros((nbos, nocc, nvir), dtype=types[float])
    .zeros 193 [2, 0, 1],
    -- 1152: x112 += einsum("wia,ijba->wjb", u11, x111)
    .add 193 (.ein [(19, [0, 1, 2]), (192, [1, 3, 4, 2])] [0, 3, 4]) 1 1,
    -- 1153: del x111
    .del 192,
    -- 1154: x165 += einsum("wia->wia", x112)
    .add 188 (.ein [(193, [0, 1, 2])] [0, 1, 2]) 1 1,
    -- 1155: x166 = np.zeros((nocc, nocc, nvir, nvir), dtype=types[float])
    .zeros 194 [0, 0, 1, 1],
    -- 1156: x166 += einsum("wia,wjb->ijab", g.bov, x165)
    .add 194 (.ein [(2, [0, 1, 2]), (188, [0, 3, 4])] [1, 3, 2, 4]) 1 1,
    -- 1157: del x165
    .del 188,
    -- 1158: x169 += einsum("ijab->ijab", x166)
    .add 101 (.ein [(194, [0, 1, 2, 3])] [0, 1, 2, 3]) 1 1,
    -- 1159: del x166
    .del 194,
    -- 1160: l1new -= einsum("wij,wja->ai", x110, x112)
    .add 87 (.ein [(133, [0, 1, 2]), (193, [0, 2, 3])] [3, 1]) (-1) 1,
    -- 1161: del x110
    .del 133,
    -- 1162: l1new += einsum("wab,wia->bi", g.bvv, x112)
    .add 87 (.ein [(3, [0, 1, 2]), (193, [0, 3, 1])] [2, 3]) 1 1,
    -- 1163: del x112
    .del 193,
    -- 1164: x113 = np.zeros((nocc, nocc, nvir, nvir), dtype=types[float])
    .zeros 195 [0, 0, 1, 1],
    -- 1165: x113 += einsum("iabj->ijba", v.ovvo) * 2
    .add 195 (.ein [(13, [0, 1, 2, 3])] [0, 3, 2, 1]) 2 1,
    -- 1166: x113 -= einsum("ijab->ijab", v.oovv)
    .add 195 (.ein [(14, [0, 1, 2, 3])] [0, 1, 2, 3]) (-1) 1,
    -- 1167: l1new += einsum("ai,jiab->bj", l1, x113)
    .add 87 (.ein [(10, [0, 1]), (195, [2, 1, 0, 3])] [3, 2]) 1 1,
    -- 1168: lu11new += einsum("wai,jiab->wbj", lu11, x113)
    .add 129 (.ein [(25, [0, 1, 2]), (195, [3, 2, 1, 4])] [0, 4, 3]) 1 1,
    -- 1169: del x113
    .del 195,
    -- 1170: x114 += einsum("wia->wia", gc.bov)
    .add 182 (.ein [(30, [0, 1, 2])] [0, 1, 2]) 1 1,
    -- 1171: l1new -= einsum("wia,wji->aj", x114, x79)
    .add 87 (.ein [(182, [0, 1, 2]), (155, [0, 3, 1])] [2, 3]) (-1) 1,
    -- 1172: del x114
    .del 182,
    -- 1173: del x79
    .del 155,
    -- 1174: x116 += einsum("ab->ab", f.vv)
    .add 120 (.ein [(22, [0, 1])] [0, 1]) 1 1,
    -- 1175: l1new += einsum("ai,ab->bi", l1, x116)
    .add 87 (.ein [(10, [0, 1]), (120, [0, 2])] [2, 1]) 1 1,
    -- 1176: del x116
    .del 120,
    -- 1177: x117 = np.zeros((nbos), dtype=types[float])
    .zeros 196 [2],
    -- 1178: x117 += einsum("w,wx->x", s1, w)
    .add 196 (.ein [(4, [0]), (27, [0, 1])] [1]) 1 1,
    -- 1179: x122 += einsum("w->w", x117)
    .add 185 (.ein [(196, [0])] [0]) 1 1,
    -- 1180: del x117
    .del 196,
    -- 1181: x118 = np.zeros((nbos), dtype=types[float])
    .zeros 197 [2],
    -- 1182: x118 += einsum("ia,wia->w", t1, gc.bov)
    .add 197 (.ein [(8, [0, 1]), (30, [2, 0, 1])] [2]) 1 1,
    -- 1183: x122 += einsum("w->w", x118) * 2
    .add 185 (.ein [(197, [0])] [0]) 2 1,
    -- 1184: del x118
    .del 197,
    -- 1185: x120 += einsum("w->w", G)
    .add 152 (.ein [(23, [0])] [0]) 1 1,
    -- 1186: x121 = np.zeros((nbos), dtype=types[float])
    .zeros 198 [2],
    -- 1187: x121 += einsum("w,wx->x", x120, s2)
    .add 198 (.ein [(152, [0]), (26, [0, 1])] [1]) 1 1,
    -- 1188: x122 += einsum("w->w", x121)
    .add 185 (.ein [(198, [0])] [0]) 1 1,
    -- 1189: del x121
    .del 198,
    -- 1190: x189 = np.zeros((nbos, nbos), dtype=types[float])
    .zeros 199 [2, 2],
    -- 1191: x189 += einsum("w,x->xw", ls1, x120)
    .add 199 (.ein [(20, [0]), (152, [1])] [1, 0]) 1 1,
    -- 1192: del x120
    .del 152,
    -- 1193: x122 += einsum("w->w", G)
    .add 185 (.ein [(23, [0])] [0]) 1 1,
    -- 1194: l1new += einsum("w,wai->ai", x122, lu11)
    .add 87 (.ein [(185, [0]), (25, [0, 1, 2])] [1, 2]) 1 1,
    -- 1195: ls1new += einsum("w,wx->x", x122, ls2)
    .add 163 (.ein [(185, [0]), (28, [0, 1])] [1]) 1 1,
    -- 1196: del x122
    .del 185,
    -- 1197: x123 = np.zeros((nbos), dtype=types[float])
    .zeros 200 [2],
    -- 1198: x123 += einsum("w->w", s1)
    .add 200 (.ein [(4, [0])] [0]) 1 1,
    -- 1199: x123 += einsum("w,xw->x", ls1, s2)
    .add 200 (.ein [(20, [0]), (26, [1, 0])] [1]) 1 1,
    -- 1200: x123 += einsum("ai,wia->w", l1, u11) * 2
    .add 200 (.ein [(10, [0, 1]), (19, [2, 1, 0])] [2]) 2 1,
    -- 1201: l1new += einsum("w,wia->ai", x123, g.bov)
    .add 87 (.ein [(200, [0]), (2, [0, 1, 2])] [2, 1]) 1 1,
    -- 1202: del x123
    .del 200,
    -- 1203: x124 = np.zeros((nocc, nocc, nvir, nvir), dtype=types[float])
    .zeros 201 [0, 0, 1, 1],
    -- 1204: x124 += einsum("ai,jbac->ijbc", l1, v.ovvv)
    .add 201 (.ein [(10, [0, 1]), (7, [2, 3, 0, 4])] [1, 2, 3, 4]) 1 1,
    -- 1205: x143 -= einsum("ijab->ijab", x124)
    .add 57 (.ein [(201, [0, 1, 2, 3])] [0, 1, 2, 3]) (-1) 1,
    -- 1206: del x124
    .del 201,
    -- 1207: x130 = np.zeros((nocc, nocc, nvir, nvir), dtype=types[float])
    .zeros 202 [0, 0, 1, 1],
    -- 1208: x130 += einsum("ijab,kbic->jkac", t2, v.ovov)
    .add 202 (.ein [(6, [0, 1, 2, 3]), (9, [4, 3, 0, 5])] [1, 4, 2, 5]) 1 1,
    -- 1209: x131 -= einsum("ijab->ijab", x130)
    .add 45 (.ein [(202, [0, 1, 2, 3])] [0, 1, 2, 3]) (-1) 1,
    -- 1210: del x130
    .del 202,
    -- 1211: x131 += einsum("ijab->jiab", v.oovv)
    .add 45 (.ein [(14, [0, 1, 2, 3])] [1, 0, 2, 3]) 1 1,
    -- 1212: x132 = np.zeros((nocc, nocc, nvir, nvir), dtype=types[float])
    .zeros 203 [0, 0, 1, 1],
    -- 1213: x132 += einsum("abij,ikbc->jkac", l2, x131)
    .add 203 (.ein [(11, [0, 1, 2, 3]), (45, [2, 4, 1, 5])] [3, 4, 0, 5]) 1 1,
    -- 1214: x143 += einsum("ijab->ijab", x132)
    .add 57 (.ein [(203, [0, 1, 2, 3])] [0, 1, 2, 3]) 1 1,
    -- 1215: del x132
    .del 203,
    -- 1216: x156 = np.zeros((nocc, nocc, nvir, nvir), dtype=types[float])
    .zeros 204 [0, 0, 1, 1],
    -- 1217: x156 += einsum("abij,ikac->jkbc", l2, x131)
    .add 204 (.ein [(11, [0, 1, 2, 3]), (45, [2, 4, 0, 5])] [3, 4, 1, 5]) 1 1,
    -- 1218: del x131
    .del 45,
    -- 1219: x169 -= einsum("ijab->ijab", x156)
    .add 101 (.ein [(204, [0, 1, 2, 3])] [0, 1, 2, 3]) (-1) 1,
    -- 1220: del x156
    .del 204,
    -- 1221: x133 = np.zeros((nvir, nvir), dtype=types[float])
    .zeros 205 [1, 1],
    -- 1222: x133 += einsum("wia,wib->ab", g.bov, u11)
    .add 205 (.ein [(2, [0, 1, 2]), (19, [0, 1, 3])] [2, 3]) 1 1,
    -- 1223: x134 -= einsum("ab->ba", x133)
    .add 147 (.ein [(205, [0, 1])] [1, 0]) (-1) 1,
    -- 1224: del x133
    .del 205,
    -- 1225: x134 += einsum("ab->ab", f.vv)
    .add 147 (.ein [(22, [0, 1])] [0, 1]) 1 1,
    -- 1226: x135 = np.zeros((nocc, nocc, nvir, nvir), dtype=types[float])
    .zeros 206 [0, 0, 1, 1],
    -- 1227: x135 += einsum("ab,acij->ijcb", x134, l2)
    .add 206 (.ein [(147, [0, 1]), (11, [0, 2, 3, 4])] [3, 4, 2, 1]) 1 1,
    -- 1228: del x134
    .del 147,
    -- 1229: x143 -= einsum("ijab->jiba", x135)
    .add 57 (.ein [(206, [0, 1, 2, 3])] [1, 0, 3, 2]) (-1) 1,
    -- 1230: del x135
    .del 206,
    -- 1231: x136 += einsum("ia->ia", f.ov)
    .add 38 (.ein [(5, [0, 1])] [0, 1]) 1 1,
    -- 1232: x137 = np.zeros((nocc, nocc), dtype=types[float])
    .zeros 207 [0, 0],
    -- 1233: x137 += einsum("ia,ja->ij", t1, x136)
    .add 207 (.ein [(8, [0, 1]), (38, [2, 1])] [0, 2]) 1 1,
    -- 1234: x138 += einsum("ij->ji", x137)
    .add 136 (.ein [(207, [0, 1])] [1, 0]) 1 1,
    -- 1235: del x137
    .del 207,
    -- 1236: x142 = np.zeros((nocc, nocc, nvir, nvir), dtype=types[float])
    .zeros 208 [0, 0, 1, 1],
    -- 1237: x142 += einsum("ia,jkib->jkba", x136, x31)
    .add 208 (.ein [(38, [0, 1]), (94, [2, 3, 0, 4])] [2, 3, 4, 1]) 1 1,
    -- 1238: x143 += einsum("ijab->ijba", x142)
    .add 57 (.ein [(208, [0, 1, 2, 3])] [0, 1, 3, 2]) 1 1,
    -- 1239: del x142
    .del 208,
    -- 1240: x169 += einsum("ai,jb->jiba", l1, x136)
    .add 101 (.ein [(10, [0, 1]), (38, [2, 3])] [2, 1, 3, 0]) 1 1,
    -- 1241: del x136
    .del 38,
    -- 1242: x138 += einsum("ij->ij", f.oo)
    .add 136 (.ein [(21, [0, 1])] [0, 1]) 1 1,
    -- 1243: x139 = np.zeros((nocc, nocc, nvir, nvir), dtype=types[float])
    .zeros 209 [0, 0, 1, 1],
    -- 1244: x139 += einsum("ij,abjk->kiab", x138, l2)
    .add 209 (.ein [(136, [0, 1]), (11, [2, 3, 1, 4])] [4, 0, 2, 3]) 1 1,
    -- 1245: del x138
    .del 136,
    -- 1246: x143 += einsum("ijab->jiba", x139)
    .add 57 (.ein [(209, [0, 1, 2, 3])] [1, 0, 3, 2]) 1 1,
    -- 1247: del x139
    .del 209,
    -- 1248: l2new -= einsum("ijab->baij", x143)
    .add 78 (.ein [(57, [0, 1, 2, 3])] [3, 2, 0, 1]) (-1) 1,
    -- 1249: l2new -= einsum("ijab->abji", x143)
    .add 78 (.ein [(57, [0, 1, 2, 3])] [2, 3, 1, 0]) (-1) 1,
    -- 1250: del x143
    .del 57,
    -- 1251: x144 = np.zeros((nocc, nocc, nvir, nvir), dtype=types[float])
    .zeros 210 [0, 0, 1, 1],
    -- 1252: x144 += einsum("wia,wbj->ijab", gc.bov, lu11)
    .add 210 (.ein [(30, [0, 1, 2]), (25, [0, 3, 4])] [1, 4, 2, 3]) 1 1,
    -- 1253: x169 += einsum("ijab->ijab", x144)
    .add 101 (.ein [(210, [0, 1, 2, 3])] [0, 1, 2, 3]) 1 1,
    -- 1254: del x144
    .del 210,
    -- 1255: x145 = np.zeros((nocc, nocc, nvir, nvir), dtype=types[float])
    .zeros 211 [0, 0, 1, 1],
    -- 1256: x145 += einsum("ai,jikb->jkab", l1, v.ooov)
    .add 211 (.ein [(10, [0, 1]), (12, [2, 1, 3, 4])] [2, 3, 0, 4]) 1 1,
    -- 1257: x169 -= einsum("ijab->ijab", x145)
    .add 101 (.ein [(211, [0, 1, 2, 3])] [0, 1, 2, 3]) (-1) 1,
    -- 1258: del x145
    .del 211,
    -- 1259: x149 = np.zeros((nocc, nocc, nvir, nvir), dtype=types[float])
    .zeros 212 [0, 0, 1, 1],
    -- 1260: x149 -= einsum("abij->jiab", l2)
    .add 212 (.ein [(11, [0, 1, 2, 3])] [3, 2, 0, 1]) (-1) 1,
    -- 1261: x149 += einsum("abij->jiba", l2) * 2
    .add 212 (.ein [(11, [0, 1, 2, 3])] [3, 2, 1, 0]) 2 1,
    -- 1262: lu11new += einsum("wai,ijab->wbj", g.bvo, x149)
    .add 129 (.ein [(1, [0, 1, 2]), (212, [2, 3, 1, 4])] [0, 4, 3]) 1 1,
    -- 1263: x150 = np.zeros((nocc, nocc, nvir, nvir), dtype=types[float])
    .zeros 213 [0, 0, 1, 1],
    -- 1264: x150 += einsum("ia,jbca->ijcb", t1, v.ovvv)
    .add 213 (.ein [(8, [0, 1]), (7, [2, 3, 4, 1])] [0, 2, 4, 3]) 1 1,
    -- 1265: x154 = np.zeros((nocc, nocc, nvir, nvir), dtype=types[float])
    .zeros 214 [0, 0, 1, 1],
    -- 1266: x154 += einsum("ijab->ijab", x150)
    .add 214 (.ein [(213, [0, 1, 2, 3])] [0, 1, 2, 3]) 1 1,
    -- 1267: del x150
    .del 213,
    -- 1268: x151 = np.zeros((nocc, nocc, nvir, nvir), dtype=types[float])
    .zeros 215 [0, 0, 1, 1],
    -- 1269: x151 += einsum("ijab,kaic->jkbc", t2, v.ovov)
    .add 215 (.ein [(6, [0, 1, 2, 3]), (9, [4, 2, 0, 5])] [1, 4, 3, 5]) 1 1,
    -- 1270: x154 -= einsum("ijab->ijab", x151)
    .add 214 (.ein [(215, [0, 1, 2, 3])] [0, 1, 2, 3]) (-1) 1,
    -- 1271: del x151
    .del 215,
    -- 1272: x152 = np.zeros((nocc, nocc, nvir, nvir), dtype=types[float])
    .zeros 216 [0, 0, 1, 1],
    -- 1273: x152 += einsum("ijab->jiab", t2) * 2
    .add 216 (.ein [(6, [0, 1, 2, 3])] [1, 0, 2, 3]) 2 1,
    -- 1274: x152 -= einsum("ijab->jiba", t2)
    .add 216 (.ein [(6, [0, 1, 2, 3])] [1, 0, 3, 2]) (-1) 1,
    -- 1275: x153 = np.zeros((nocc, nocc, nvir, nvir), dtype=types[float])
    .zeros 217 [0, 0, 1, 1],
    -- 1276: x153 += einsum("iajb,ikca->jkbc", v.ovov, x152)
    .add 217 (.ein [(9, [0, 1, 2, 3]), (216, [0, 4, 5, 1])] [2, 4, 3, 5]) 1 1,
    -- 1277: x154 += einsum("ijab->jiba", x153)
    .add 214 (.ein [(217, [0, 1, 2, 3])] [1, 0, 3, 2]) 1 1,
    -- 1278: del x153
    .del 217,
    -- 1279: x185 = np.zeros((nbos, nocc, nvir), dtype=types[float])
    .zeros 218 [2, 0, 1],
    -- 1280: x185 += einsum("wia,ijba->wjb", g.bov, x152)
    .add 218 (.ein [(2, [0, 1, 2]), (216, [1, 3, 4, 2])] [0, 3, 4]) 1 1,
    -- 1281: del x152
    .del 216,
    -- 1282: x187 += einsum("wia->wia", x185)
    .add 191 (.ein [(218, [0, 1, 2])] [0, 1, 2]) 1 1,
    -- 1283: del x185
    .del 218,
    -- 1284: x154 += einsum("iabj->jiba", v.ovvo)
    .add 214 (.ein [(13, [0, 1, 2, 3])] [3, 0, 2, 1]) 1 1,
    -- 1285: x155 = np.zeros((nocc, nocc, nvir, nvir), dtype=types[float])
    .zeros 219 [0, 0, 1, 1],
    -- 1286: x155 += einsum("ijab,ikac->jkbc", x149, x154)
    .add 219 (.ein [(212, [0, 1, 2, 3]), (214, [0, 4, 2, 5])] [1, 4, 3, 5]) 1 1,
    -- 1287: del x154
    .del 214,
    -- 1288: del x149
    .del 212,
    -- 1289: x169 += einsum("ijab->ijab", x155)
    .add 101 (.ein [(219, [0, 1, 2, 3])] [0, 1, 2, 3]) 1 1,
    -- 1290: del x155
    .del 219,
    -- 1291: x158 = np.zeros((nocc, nocc, nocc, nvir), dtype=types[float])
    .zeros 220 [0, 0, 0, 1],
    -- 1292: x158 += einsum("ijka->ikja", v.ooov) * 2
    .add 220 (.ein [(12, [0, 1, 2, 3])] [0, 2, 1, 3]) 2 1,
    -- 1293: x158 -= einsum("ijka->kija", v.ooov)
    .add 220 (.ein [(12, [0, 1, 2, 3])] [2, 0, 1, 3]) (-1) 1,
    -- 1294: x159 = np.zeros((nocc, nocc, nvir, nvir), dtype=types[float])
    .zeros 221 [0, 0, 1, 1],
    -- 1295: x159 += einsum("ijka,lkib->ljba", x158, x31)
    .add 221 (.ein [(220, [0, 1, 2, 3]), (94, [4, 2, 0, 5])] [4, 1, 5, 3]) 1 1,
    -- 1296: del x158
    .del 220,
    -- 1297: del x31
    .del 94,
    -- 1298: x169 -= einsum("ijab->ijab", x159)
    .add 101 (.ein [(221, [0, 1, 2, 3])] [0, 1, 2, 3]) (-1) 1,
    -- 1299: del x159
    .del 221,
    -- 1300: l2new += einsum("ijab->abij", x169)
    .add 78 (.ein [(101, [0, 1, 2, 3])] [2, 3, 0, 1]) 1 1,
    -- 1301: l2new += einsum("ijab->baji", x169)
    .add 78 (.ein [(101, [0, 1, 2, 3])] [3, 2, 1, 0]) 1 1,
    -- 1302: del x169
    .del 101,
    -- 1303: x178 += einsum("ijkl->kilj", v.oooo)
    .add 48 (.ein [(15, [0, 1, 2, 3])] [2, 0, 3, 1]) 1 1,
    -- 1304: l2new += einsum("abij,klji->ablk", l2, x178)
    .add 78 (.ein [(11, [0, 1, 2, 3]), (48, [4, 5, 3, 2])] [0, 1, 5, 4]) 1 1,
    -- 1305: del x178
    .del 48,
    -- 1306: x179 += einsum("ai->ia", f.vo)
    .add 80 (.ein [(24, [0, 1])] [1, 0]) 1 1,
    -- 1307: ls1new += einsum("ia,wai->w", x179, lu11) * 2
    .add 163 (.ein [(80, [0, 1]), (25, [2, 1, 0])] [2]) 2 1,
    -- 1308: del x179
    .del 80,
    -- 1309: x181 = np.zeros((nbos, nbos), dtype=types[float])
    .zeros 222 [2, 2],
    -- 1310: x181 += einsum("wx,yx->wy", ls2, w)
    .add 222 (.ein [(28, [0, 1]), (27, [2, 1])] [0, 2]) 1 1,
    -- 1311: x189 += einsum("wx->wx", x181)
    .add 199 (.ein [(222, [0, 1])] [0, 1]) 1 1,
    -- 1312: del x181
    .del 222,
    -- 1313: x182 = np.zeros((nbos, nbos), dtype=types[float])
    .zeros 223 [2, 2],
    -- 1314: x182 += einsum("wia,xia->wx", g.bov, u11)
    .add 223 (.ein [(2, [0, 1, 2]), (19, [3, 1, 2])] [0, 3]) 1 1,
    -- 1315: x183 = np.zeros((nbos, nbos), dtype=types[float])
    .zeros 224 [2, 2],
    -- 1316: x183 += einsum("wx,yx->yw", ls2, x182)
    .add 224 (.ein [(28, [0, 1]), (223, [2, 1])] [2, 0]) 1 1,
    -- 1317: del x182
    .del 223,
    -- 1318: x189 += einsum("wx->wx", x183) * 2
    .add 199 (.ein [(224, [0, 1])] [0, 1]) 2 1,
    -- 1319: del x183
    .del 224,
    -- 1320: x184 = np.zeros((nbos, nocc, nvir), dtype=types[float])
    .zeros 225 [2, 0, 1],
    -- 1321: x184 += einsum("ia,wba->wib", t1, g.bvv)
    .add 225 (.ein [(8, [0, 1]), (3, [2, 3, 1])] [2, 0, 3]) 1 1,
    -- 1322: x187 += einsum("wia->wia", x184)
    .add 191 (.ein [(225, [0, 1, 2])] [0, 1, 2]) 1 1,
    -- 1323: del x184
    .del 225,
    -- 1324: x187 += einsum("wai->wia", g.bvo)
    .add 191 (.ein [(1, [0, 1, 2])] [0, 2, 1]) 1 1,
    -- 1325: x188 = np.zeros((nbos, nbos), dtype=types[float])
    .zeros 226 [2, 2],
    -- 1326: x188 += einsum("wai,xia->wx", lu11, x187)
    .add 226 (.ein [(25, [0, 1, 2]), (191, [3, 2, 1])] [0, 3]) 1 1,
    -- 1327: del x187
    .del 191,
    -- 1328: x189 += einsum("wx->xw", x188) * 2
    .add 199 (.ein [(226, [0, 1])] [1, 0]) 2 1,
    -- 1329: del x188
    .del 226,
    -- 1330: ls2new = np.zeros((nbos, nbos), dtype=types[float])
    .zeros 227 [2, 2],
    -- 1331: ls2new += einsum("wx->wx", x189)
    .add 227 (.ein [(199, [0, 1])] [0, 1]) 1 1,
    -- 1332: ls2new += einsum("wx->xw", x189)
    .add 227 (.ein [(199, [0, 1])] [1, 0]) 1 1,
    -- 1333: del x189
    .del 199,
    -- 1334: l1new += einsum("ia->ai", f.ov)
    .add 87 (.ein [(5, [0, 1])] [1, 0]) 1 1,
    -- 1335: l1new += einsum("w,wia->ai", ls1, gc.bov)
    .add 87 (.ein [(20, [0]), (30, [0, 1, 2])] [2, 1]) 1 1,
    -- 1336: l2new += einsum("abij,bcad->cdji", l2, v.vvvv)
    .add 78 (.ein [(11, [0, 1, 2, 3]), (17, [1, 4, 0, 5])] [4, 5, 3, 2]) 1 1,
    -- 1337: l2new += einsum("iajb->baji", v.ovov)
    .add 78 (.ein [(9, [0, 1, 2, 3])] [3, 1, 2, 0]) 1 1,
    -- 1338: ls1new += einsum("ai,wai->w", l1, g.bvo) * 2
    .add 163 (.ein [(10, [0, 1]), (1, [2, 0, 1])] [2]) 2 1,
    -- 1339: ls1new += einsum("w,xw->x", ls1, w)
    .add 163 (.ein [(20, [0]), (27, [1, 0])] [1]) 1 1,
    -- 1340: ls1new += einsum("w->w", G)
    .add 163 (.ein [(23, [0])] [0]) 1 1,
    -- 1341: lu11new -= einsum("ij,waj->wai", f.oo, lu11)
    .add 129 (.ein [(21, [0, 1]), (25, [2, 3, 1])] [2, 3, 0]) (-1) 1,
    -- 1342: lu11new -= einsum("ai,wji->waj", l1, g.boo)
    .add 129 (.ein [(10, [0, 1]), (0, [2, 3, 1])] [2, 0, 3]) (-1) 1,
    -- 1343: lu11new += einsum("wx,xia->wai", ls2, gc.bov)
    .add 129 (.ein [(28, [0, 1]), (30, [1, 2, 3])] [0, 3, 2]) 1 1,
    -- 1344: lu11new += einsum("wx,xai->wai", w, lu11)
    .add 129 (.ein [(27, [0, 1]), (25, [1, 2, 3])] [0, 2, 3]) 1 1,
    -- 1345: lu11new += einsum("wia->wai", g.bov)
    .add 129 (.ein [(2, [0, 1, 2])] [0, 2, 1]) 1 1,
    -- 1346: lu11new += einsum("ab,wai->wbi", f.vv, lu11)
    .add 129 (.ein [(22, [0, 1]), (25, [2, 0, 3])] [2, 1, 3]) 1 1,
    -- 1347: lu11new += einsum("ai,wab->wbi", l1, g.bvv)
    .add 129 (.ein [(10, [0, 1]), (3, [2, 0, 3])] [2, 3, 1]) 1 1
  ]
  ret := [(chars! "l1new", 87), (chars! "l2new", 78), (chars! "ls1new", 163), (chars! "ls2new", 227), (chars! "lu11new", 129)]

end Ebcc.Gen.RCCSD_SD_1_1
