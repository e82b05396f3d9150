import Verif.Model.GenCode
/-!
Functions of `ebcc/codegen/UCCSD_SD_1_2.py`, written by `tools/gencode.py`.  Comments give the
number and the text of the line of each statement.
-/

set_option maxRecDepth 100000

namespace Ebcc.Gen.UCCSD_SD_1_2

/-- codegen/UCCSD_SD_1_2.py:7-44 `energy`. -/
def energy : GenFun where
  args := [chars! "v.aaaa.ovov", chars! "t2.aaaa", chars! "t1.aa", chars! "v.bbbb.ovov", chars! "t2.bbbb", chars! "t1.bb", chars! "t2.abab", chars! "v.aabb.ovov", chars! "G", chars! "g.aa.bov", chars! "g.bb.bov", chars! "s1", chars! "f.aa.ov", chars! "u11.bb", chars! "f.bb.ov", chars! "u11.aa"]
  body := [
    -- 9: x0 = np.zeros((nocc[0], nocc[0], nvir[0], nvir[0]), dtype=types[float])
    .zeros 16 [0, 0, 1, 1],
    -- 10: x0 += einsum("iajb->jiab", v.aaaa.ovov) * -1
    .add 16 (.ein [(0, [0, 1, 2, 3])] [2, 0, 1, 3]) (-1) 1,
    -- 11: x0 += einsum("iajb->jiba", v.aaaa.ovov)
    .add 16 (.ein [(0, [0, 1, 2, 3])] [2, 0, 3, 1]) 1 1,
    -- 12: x1 = np.zeros((nocc[0], nocc[0], nvir[0], nvir[0]), dtype=types[float])
    .zeros 17 [0, 0, 1, 1],
    -- 13: x1 += einsum("ijab->jiba", t2.aaaa)
    .add 17 (.ein [(1, [0, 1, 2, 3])] [1, 0, 3, 2]) 1 1,
    -- 14: x1 += einsum("ia,jb->ijab", t1.aa, t1.aa)
    .add 17 (.ein [(2, [0, 1]), (2, [2, 3])] [0, 2, 1, 3]) 1 1,
    -- 15: e_cc = 0
    .zeros 18 [],
    -- 16: e_cc += einsum("ijab,ijba->", x0, x1) * -0.5
    .add 18 (.ein [(16, [0, 1, 2, 3]), (17, [0, 1, 3, 2])] []) (-1) 2,
    -- 17: del x0
    .del 16,
    -- 18: del x1
    .del 17,
    -- 19: x2 = np.zeros((nocc[1], nocc[1], nvir[1], nvir[1]), dtype=types[float])
    .zeros 19 [4, 4, 5, 5],
    -- 20: x2 += einsum("iajb->jiab", v.bbbb.ovov) * -1
    .add 19 (.ein [(3, [0, 1, 2, 3])] [2, 0, 1, 3]) (-1) 1,
    -- 21: x2 += einsum("iajb->jiba", v.bbbb.ovov)
    .add 19 (.ein [(3, [0, 1, 2, 3])] [2, 0, 3, 1]) 1 1,
    -- 22: x3 = np.zeros((nocc[1], nocc[1], nvir[1], nvir[1]), dtype=types[float])
    .zeros 20 [4, 4, 5, 5],
    -- 23: x3 += einsum("ijab->jiba", t2.bbbb)
    .add 20 (.ein [(4, [0, 1, 2, 3])] [1, 0, 3, 2]) 1 1,
    -- 24: x3 += einsum("ia,jb->ijab", t1.bb, t1.bb)
    .add 20 (.ein [(5, [0, 1]), (5, [2, 3])] [0, 2, 1, 3]) 1 1,
    -- 25: e_cc += einsum("ijab,ijba->", x2, x3) * -0.5
    .add 18 (.ein [(19, [0, 1, 2, 3]), (20, [0, 1, 3, 2])] []) (-1) 2,
    -- 26: del x2
    .del 19,
    -- 27: del x3
    .del 20,
    -- 28: x4 = np.zeros((nocc[0], nocc[1], nvir[0], nvir[1]), dtype=types[float])
    .zeros 21 [0, 4, 1, 5],
    -- 29: x4 += einsum("ijab->ijab", t2.abab)
    .add 21 (.ein [(6, [0, 1, 2, 3])] [0, 1, 2, 3]) 1 1,
    -- 30: x4 += einsum("ia,jb->ijab", t1.aa, t1.bb)
    .add 21 (.ein [(2, [0, 1]), (5, [2, 3])] [0, 2, 1, 3]) 1 1,
    -- 31: e_cc += einsum("iajb,ijab->", v.aabb.ovov, x4)
    .add 18 (.ein [(7, [0, 1, 2, 3]), (21, [0, 2, 1, 3])] []) 1 1,
    -- 32: del x4
    .del 21,
    -- 33: x5 = np.zeros((nbos), dtype=types[float])
    .zeros 22 [2],
    -- 34: x5 += einsum("w->w", G)
    .add 22 (.ein [(8, [0])] [0]) 1 1,
    -- 35: x5 += einsum("ia,wia->w", t1.aa, g.aa.bov)
    .add 22 (.ein [(2, [0, 1]), (9, [2, 0, 1])] [2]) 1 1,
    -- 36: x5 += einsum("ia,wia->w", t1.bb, g.bb.bov)
    .add 22 (.ein [(5, [0, 1]), (10, [2, 0, 1])] [2]) 1 1,
    -- 37: e_cc += einsum("w,w->", s1, x5)
    .add 18 (.ein [(11, [0]), (22, [0])] []) 1 1,
    -- 38: del x5
    .del 22,
    -- 39: e_cc += einsum("ia,ia->", f.aa.ov, t1.aa)
    .add 18 (.ein [(12, [0, 1]), (2, [0, 1])] []) 1 1,
    -- 40: e_cc += einsum("wia,wia->", g.bb.bov, u11.bb)
    .add 18 (.ein [(10, [0, 1, 2]), (13, [0, 1, 2])] []) 1 1,
    -- 41: e_cc += einsum("ia,ia->", f.bb.ov, t1.bb)
    .add 18 (.ein [(14, [0, 1]), (5, [0, 1])] []) 1 1,
    -- 42: e_cc += einsum("wia,wia->", g.aa.bov, u11.aa)
    .add 18 (.ein [(9, [0, 1, 2]), (15, [0, 1, 2])] []) 1 1
  ]
  ret := [(chars! "e_cc", 18)]

/-- codegen/UCCSD_SD_1_2.py:46-1825 `update_amps`. -/
def update_amps : GenFun where
  args := [chars! "g.aa.boo", chars! "g.aa.bvo", chars! "g.aa.bov", chars! "g.aa.bvv", chars! "g.bb.boo", chars! "g.bb.bvo", chars! "g.bb.bov", chars! "g.bb.bvv", chars! "t1.aa", chars! "v.aaaa.ovov", chars! "t2.aaaa", chars! "v.aaaa.ooov", chars! "v.aaaa.ovvv", chars! "v.aabb.ovov", chars! "t2.abab", chars! "v.aabb.ooov", chars! "u12.bb", chars! "s1", chars! "t1.bb", chars! "u11.aa", chars! "u12.aa", chars! "f.aa.ov", chars! "t2.bbbb", chars! "v.bbbb.ovov", chars! "u11.bb", chars! "f.bb.ov", chars! "v.aaaa.ovvo", chars! "v.aaaa.oovv", chars! "f.aa.oo", chars! "v.bbaa.ovvv", chars! "f.aa.vv", chars! "G", chars! "s2", chars! "v.bbbb.ooov", chars! "v.bbbb.ovvv", chars! "v.aabb.ovoo", chars! "v.bbbb.ovvo", chars! "v.bbbb.oovv", chars! "f.bb.oo", chars! "v.aabb.ovvv", chars! "f.bb.vv", chars! "v.aaaa.vovv", chars! "v.bbaa.ovvo", chars! "v.aaaa.oovo", chars! "v.aaaa.oooo", chars! "v.aaaa.vvvv", chars! "v.bbbb.vovv", chars! "v.aabb.ovvo", chars! "v.bbbb.oovo", chars! "v.bbbb.oooo", chars! "v.bbbb.vvvv", chars! "v.aabb.vvvv", chars! "v.aabb.vovv", chars! "v.aabb.oovv", chars! "v.aabb.oooo", chars! "v.bbaa.oovv", chars! "v.aabb.oovo", chars! "v.bbaa.oovo", chars! "v.aabb.vvvo", chars! "w", chars! "f.aa.vo", chars! "f.bb.vo", chars! "v.aaaa.vovo", chars! "v.bbbb.vovo", chars! "v.aabb.vovo"]
  body := [
    -- 53: gc = Namespace(
    .set 65 (.tr 0 [0, 2, 1]) 1 1,
    .set 66 (.tr 1 [0, 2, 1]) 1 1,
    .set 67 (.tr 2 [0, 2, 1]) 1 1,
    .set 68 (.tr 3 [0, 2, 1]) 1 1,
    .set 69 (.tr 4 [0, 2, 1]) 1 1,
    .set 70 (.tr 5 [0, 2, 1]) 1 1,
    .set 71 (.tr 6 [0, 2, 1]) 1 1,
    .set 72 (.tr 7 [0, 2, 1]) 1 1,
    -- 69: x0 = np.zeros((nocc[0], nocc[0], nocc[0], nvir[0]), dtype=types[float])
    .zeros 73 [0, 0, 0, 1],
    -- 70: x0 += einsum("ia,jbka->ijkb", t1.aa, v.aaaa.ovov)
    .add 73 (.ein [(8, [0, 1]), (9, [2, 3, 4, 1])] [0, 2, 4, 3]) 1 1,
    -- 71: x1 = np.zeros((nocc[0], nocc[0], nocc[0], nvir[0]), dtype=types[float])
    .zeros 74 [0, 0, 0, 1],
    -- 72: x1 += einsum("ijka->ijka", x0)
    .add 74 (.ein [(73, [0, 1, 2, 3])] [0, 1, 2, 3]) 1 1,
    -- 73: x1 += einsum("ijka->ikja", x0) * -1
    .add 74 (.ein [(73, [0, 1, 2, 3])] [0, 2, 1, 3]) (-1) 1,
    -- 74: x69 = np.zeros((nocc[0], nocc[0], nocc[0], nvir[0]), dtype=types[float])
    .zeros 75 [0, 0, 0, 1],
    -- 75: x69 += einsum("ijka->ijka", x0)
    .add 75 (.ein [(73, [0, 1, 2, 3])] [0, 1, 2, 3]) 1 1,
    -- 76: x69 -= einsum("ijka->ikja", x0)
    .add 75 (.ein [(73, [0, 1, 2, 3])] [0, 2, 1, 3]) (-1) 1,
    -- 77: x127 = np.zeros((nocc[0], nocc[0], nocc[0], nocc[0]), dtype=types[float])
    .zeros 76 [0, 0, 0, 0],
    -- 78: x127 += einsum("ia,jkla->jilk", t1.aa, x0)
    .add 76 (.ein [(8, [0, 1]), (73, [2, 3, 4, 1])] [2, 0, 4, 3]) 1 1,
    -- 79: x128 = np.zeros((nocc[0], nocc[0], nvir[0], nvir[0]), dtype=types[float])
    .zeros 77 [0, 0, 1, 1],
    -- 80: x128 += einsum("ijab,klij->lkba", t2.aaaa, x127)
    .add 77 (.ein [(10, [0, 1, 2, 3]), (76, [4, 5, 0, 1])] [5, 4, 3, 2]) 1 1,
    -- 81: x132 = np.zeros((nocc[0], nocc[0], nvir[0], nvir[0]), dtype=types[float])
    .zeros 78 [0, 0, 1, 1],
    -- 82: x132 += einsum("ijab->ijab", x128)
    .add 78 (.ein [(77, [0, 1, 2, 3])] [0, 1, 2, 3]) 1 1,
    -- 83: del x128
    .del 77,
    -- 84: x133 = np.zeros((nocc[0], nocc[0], nocc[0], nvir[0]), dtype=types[float])
    .zeros 79 [0, 0, 0, 1],
    -- 85: x133 += einsum("ia,jkli->jkla", t1.aa, x127)
    .add 79 (.ein [(8, [0, 1]), (76, [2, 3, 4, 0])] [2, 3, 4, 1]) 1 1,
    -- 86: del x127
    .del 76,
    -- 87: x134 = np.zeros((nocc[0], nocc[0], nvir[0], nvir[0]), dtype=types[float])
    .zeros 80 [0, 0, 1, 1],
    -- 88: x134 += einsum("ia,jkib->jkab", t1.aa, x133)
    .add 80 (.ein [(8, [0, 1]), (79, [2, 3, 0, 4])] [2, 3, 1, 4]) 1 1,
    -- 89: del x133
    .del 79,
    -- 90: x141 = np.zeros((nocc[0], nocc[0], nvir[0], nvir[0]), dtype=types[float])
    .zeros 81 [0, 0, 1, 1],
    -- 91: x141 += einsum("ijab->ijab", x134)
    .add 81 (.ein [(80, [0, 1, 2, 3])] [0, 1, 2, 3]) 1 1,
    -- 92: del x134
    .del 80,
    -- 93: x259 = np.zeros((nocc[0], nocc[0], nocc[0], nvir[0]), dtype=types[float])
    .zeros 82 [0, 0, 0, 1],
    -- 94: x259 += einsum("ijka->jkia", x0) * -1
    .add 82 (.ein [(73, [0, 1, 2, 3])] [1, 2, 0, 3]) (-1) 1,
    -- 95: x259 += einsum("ijka->kjia", x0)
    .add 82 (.ein [(73, [0, 1, 2, 3])] [2, 1, 0, 3]) 1 1,
    -- 96: del x0
    .del 73,
    -- 97: x1 += einsum("ijka->jika", v.aaaa.ooov) * -1
    .add 74 (.ein [(11, [0, 1, 2, 3])] [1, 0, 2, 3]) (-1) 1,
    -- 98: x1 += einsum("ijka->jkia", v.aaaa.ooov)
    .add 74 (.ein [(11, [0, 1, 2, 3])] [1, 2, 0, 3]) 1 1,
    -- 99: t1new_aa = np.zeros((nocc[0], nvir[0]), dtype=types[float])
    .zeros 83 [0, 1],
    -- 100: t1new_aa += einsum("ijab,kjib->ka", t2.aaaa, x1) * -1
    .add 83 (.ein [(10, [0, 1, 2, 3]), (74, [4, 1, 0, 3])] [4, 2]) (-1) 1,
    -- 101: del x1
    .del 74,
    -- 102: x2 = np.zeros((nocc[0], nvir[0], nvir[0], nvir[0]), dtype=types[float])
    .zeros 84 [0, 1, 1, 1],
    -- 103: x2 += einsum("iabc->ibac", v.aaaa.ovvv) * -1
    .add 84 (.ein [(12, [0, 1, 2, 3])] [0, 2, 1, 3]) (-1) 1,
    -- 104: x2 += einsum("iabc->ibca", v.aaaa.ovvv)
    .add 84 (.ein [(12, [0, 1, 2, 3])] [0, 2, 3, 1]) 1 1,
    -- 105: x99 = np.zeros((nocc[0], nocc[0], nvir[0], nvir[0]), dtype=types[float])
    .zeros 85 [0, 0, 1, 1],
    -- 106: x99 += einsum("ia,jbca->ijbc", t1.aa, x2)
    .add 85 (.ein [(8, [0, 1]), (84, [2, 3, 4, 1])] [0, 2, 3, 4]) 1 1,
    -- 107: x105 = np.zeros((nvir[0], nvir[0]), dtype=types[float])
    .zeros 86 [1, 1],
    -- 108: x105 += einsum("ia,ibca->bc", t1.aa, x2)
    .add 86 (.ein [(8, [0, 1]), (84, [0, 2, 3, 1])] [2, 3]) 1 1,
    -- 109: x106 = np.zeros((nvir[0], nvir[0]), dtype=types[float])
    .zeros 87 [1, 1],
    -- 110: x106 += einsum("ab->ab", x105) * -1
    .add 87 (.ein [(86, [0, 1])] [0, 1]) (-1) 1,
    -- 111: del x105
    .del 86,
    -- 112: t1new_aa += einsum("ijab,icab->jc", t2.aaaa, x2) * -1
    .add 83 (.ein [(10, [0, 1, 2, 3]), (84, [0, 4, 2, 3])] [1, 4]) (-1) 1,
    -- 113: del x2
    .del 84,
    -- 114: x3 = np.zeros((nocc[0], nocc[0], nocc[1], nvir[1]), dtype=types[float])
    .zeros 88 [0, 0, 4, 5],
    -- 115: x3 += einsum("ia,jakb->ijkb", t1.aa, v.aabb.ovov)
    .add 88 (.ein [(8, [0, 1]), (13, [2, 1, 3, 4])] [0, 2, 3, 4]) 1 1,
    -- 116: x4 = np.zeros((nocc[0], nocc[0], nocc[1], nvir[1]), dtype=types[float])
    .zeros 89 [0, 0, 4, 5],
    -- 117: x4 += einsum("ijka->jika", x3)
    .add 89 (.ein [(88, [0, 1, 2, 3])] [1, 0, 2, 3]) 1 1,
    -- 118: x112 = np.zeros((nocc[0], nocc[0], nocc[0], nvir[0]), dtype=types[float])
    .zeros 90 [0, 0, 0, 1],
    -- 119: x112 += einsum("ijab,kljb->kila", t2.abab, x3)
    .add 90 (.ein [(14, [0, 1, 2, 3]), (88, [4, 5, 1, 3])] [4, 0, 5, 2]) 1 1,
    -- 120: del x3
    .del 88,
    -- 121: x115 = np.zeros((nocc[0], nocc[0], nocc[0], nvir[0]), dtype=types[float])
    .zeros 91 [0, 0, 0, 1],
    -- 122: x115 += einsum("ijka->ikja", x112)
    .add 91 (.ein [(90, [0, 1, 2, 3])] [0, 2, 1, 3]) 1 1,
    -- 123: del x112
    .del 90,
    -- 124: x4 += einsum("ijka->ijka", v.aabb.ooov)
    .add 89 (.ein [(15, [0, 1, 2, 3])] [0, 1, 2, 3]) 1 1,
    -- 125: x283 = np.zeros((nocc[0], nocc[1], nocc[1], nvir[0]), dtype=types[float])
    .zeros 92 [0, 4, 4, 1],
    -- 126: x283 += einsum("ijab,iklb->kjla", t2.abab, x4)
    .add 92 (.ein [(14, [0, 1, 2, 3]), (89, [0, 4, 5, 3])] [4, 1, 5, 2]) 1 1,
    -- 127: x287 = np.zeros((nocc[0], nocc[1], nocc[1], nvir[0]), dtype=types[float])
    .zeros 93 [0, 4, 4, 1],
    -- 128: x287 += einsum("ijka->ikja", x283) * -1
    .add 93 (.ein [(92, [0, 1, 2, 3])] [0, 2, 1, 3]) (-1) 1,
    -- 129: del x283
    .del 92,
    -- 130: x374 = np.zeros((nbos, nbos, nocc[0], nocc[0]), dtype=types[float])
    .zeros 94 [2, 2, 0, 0],
    -- 131: x374 += einsum("wxia,jkia->xwjk", u12.bb, x4)
    .add 94 (.ein [(16, [0, 1, 2, 3]), (89, [4, 5, 2, 3])] [1, 0, 4, 5]) 1 1,
    -- 132: t1new_aa += einsum("ijab,ikjb->ka", t2.abab, x4) * -1
    .add 83 (.ein [(14, [0, 1, 2, 3]), (89, [0, 4, 1, 3])] [4, 2]) (-1) 1,
    -- 133: x5 = np.zeros((nocc[0], nvir[0]), dtype=types[float])
    .zeros 95 [0, 1],
    -- 134: x5 += einsum("w,wia->ia", s1, g.aa.bov)
    .add 95 (.ein [(17, [0]), (2, [0, 1, 2])] [1, 2]) 1 1,
    -- 135: x9 = np.zeros((nocc[0], nvir[0]), dtype=types[float])
    .zeros 96 [0, 1],
    -- 136: x9 += einsum("ia->ia", x5)
    .add 96 (.ein [(95, [0, 1])] [0, 1]) 1 1,
    -- 137: x73 = np.zeros((nocc[0], nvir[0]), dtype=types[float])
    .zeros 97 [0, 1],
    -- 138: x73 += einsum("ia->ia", x5)
    .add 97 (.ein [(95, [0, 1])] [0, 1]) 1 1,
    -- 139: x297 = np.zeros((nocc[0], nvir[0]), dtype=types[float])
    .zeros 98 [0, 1],
    -- 140: x297 += einsum("ia->ia", x5)
    .add 98 (.ein [(95, [0, 1])] [0, 1]) 1 1,
    -- 141: x321 = np.zeros((nocc[0], nvir[0]), dtype=types[float])
    .zeros 99 [0, 1],
    -- 142: x321 += einsum("ia->ia", x5)
    .add 99 (.ein [(95, [0, 1])] [0, 1]) 1 1,
    -- 143: x343 = np.zeros((nocc[0], nvir[0]), dtype=types[float])
    .zeros 100 [0, 1],
    -- 144: x343 += einsum("ia->ia", x5)
    .add 100 (.ein [(95, [0, 1])] [0, 1]) 1 1,
    -- 145: del x5
    .del 95,
    -- 146: x6 = np.zeros((nocc[0], nvir[0]), dtype=types[float])
    .zeros 101 [0, 1],
    -- 147: x6 += einsum("ia,jbia->jb", t1.bb, v.aabb.ovov)
    .add 101 (.ein [(18, [0, 1]), (13, [2, 3, 0, 1])] [2, 3]) 1 1,
    -- 148: x9 += einsum("ia->ia", x6)
    .add 96 (.ein [(101, [0, 1])] [0, 1]) 1 1,
    -- 149: x97 = np.zeros((nocc[0], nocc[0]), dtype=types[float])
    .zeros 102 [0, 0],
    -- 150: x97 += einsum("ia,ja->ij", t1.aa, x6)
    .add 102 (.ein [(8, [0, 1]), (101, [2, 1])] [0, 2]) 1 1,
    -- 151: x98 = np.zeros((nocc[0], nocc[0], nvir[0], nvir[0]), dtype=types[float])
    .zeros 103 [0, 0, 1, 1],
    -- 152: x98 += einsum("ij,kjab->ikab", x97, t2.aaaa)
    .add 103 (.ein [(102, [0, 1]), (10, [2, 1, 3, 4])] [0, 2, 3, 4]) 1 1,
    -- 153: del x97
    .del 102,
    -- 154: x119 = np.zeros((nocc[0], nocc[0], nvir[0], nvir[0]), dtype=types[float])
    .zeros 104 [0, 0, 1, 1],
    -- 155: x119 += einsum("ijab->ijab", x98) * -1
    .add 104 (.ein [(103, [0, 1, 2, 3])] [0, 1, 2, 3]) (-1) 1,
    -- 156: del x98
    .del 103,
    -- 157: x113 = np.zeros((nocc[0], nocc[0], nocc[0], nvir[0]), dtype=types[float])
    .zeros 105 [0, 0, 0, 1],
    -- 158: x113 += einsum("ia,jkba->jkib", x6, t2.aaaa)
    .add 105 (.ein [(101, [0, 1]), (10, [2, 3, 4, 1])] [2, 3, 0, 4]) 1 1,
    -- 159: x115 += einsum("ijka->ikja", x113) * -1
    .add 91 (.ein [(105, [0, 1, 2, 3])] [0, 2, 1, 3]) (-1) 1,
    -- 160: del x113
    .del 105,
    -- 161: x297 += einsum("ia->ia", x6)
    .add 98 (.ein [(101, [0, 1])] [0, 1]) 1 1,
    -- 162: x316 = np.zeros((nocc[0], nvir[0]), dtype=types[float])
    .zeros 106 [0, 1],
    -- 163: x316 += einsum("ia->ia", x6)
    .add 106 (.ein [(101, [0, 1])] [0, 1]) 1 1,
    -- 164: del x6
    .del 101,
    -- 165: x7 = np.zeros((nocc[0], nocc[0], nvir[0], nvir[0]), dtype=types[float])
    .zeros 107 [0, 0, 1, 1],
    -- 166: x7 += einsum("iajb->jiab", v.aaaa.ovov)
    .add 107 (.ein [(9, [0, 1, 2, 3])] [2, 0, 1, 3]) 1 1,
    -- 167: x7 += einsum("iajb->jiba", v.aaaa.ovov) * -1
    .add 107 (.ein [(9, [0, 1, 2, 3])] [2, 0, 3, 1]) (-1) 1,
    -- 168: x8 = np.zeros((nocc[0], nvir[0]), dtype=types[float])
    .zeros 108 [0, 1],
    -- 169: x8 += einsum("ia,ijab->jb", t1.aa, x7)
    .add 108 (.ein [(8, [0, 1]), (107, [0, 2, 1, 3])] [2, 3]) 1 1,
    -- 170: x9 += einsum("ia->ia", x8) * -1
    .add 96 (.ein [(108, [0, 1])] [0, 1]) (-1) 1,
    -- 171: x316 += einsum("ia->ia", x8) * -1
    .add 106 (.ein [(108, [0, 1])] [0, 1]) (-1) 1,
    -- 172: del x8
    .del 108,
    -- 173: x317 = np.zeros((nvir[0], nvir[0]), dtype=types[float])
    .zeros 109 [1, 1],
    -- 174: x317 += einsum("ia,ib->ab", t1.aa, x316) * -1
    .add 109 (.ein [(8, [0, 1]), (106, [0, 2])] [1, 2]) (-1) 1,
    -- 175: x365 = np.zeros((nbos, nocc[0], nocc[0]), dtype=types[float])
    .zeros 110 [2, 0, 0],
    -- 176: x365 += einsum("ia,wja->wij", x316, u11.aa)
    .add 110 (.ein [(106, [0, 1]), (19, [2, 3, 1])] [2, 0, 3]) 1 1,
    -- 177: del x316
    .del 106,
    -- 178: x366 = np.zeros((nbos, nbos, nocc[0], nvir[0]), dtype=types[float])
    .zeros 111 [2, 2, 0, 1],
    -- 179: x366 += einsum("wia,xij->xwja", u11.aa, x365)
    .add 111 (.ein [(19, [0, 1, 2]), (110, [3, 1, 4])] [3, 0, 4, 2]) 1 1,
    -- 180: del x365
    .del 110,
    -- 181: x367 = np.zeros((nbos, nbos, nocc[0], nvir[0]), dtype=types[float])
    .zeros 112 [2, 2, 0, 1],
    -- 182: x367 += einsum("wxia->wxia", x366)
    .add 112 (.ein [(111, [0, 1, 2, 3])] [0, 1, 2, 3]) 1 1,
    -- 183: del x366
    .del 111,
    -- 184: x23 = np.zeros((nocc[0], nocc[0]), dtype=types[float])
    .zeros 113 [0, 0],
    -- 185: x23 += einsum("ijab,ikab->jk", t2.aaaa, x7)
    .add 113 (.ein [(10, [0, 1, 2, 3]), (107, [0, 4, 2, 3])] [1, 4]) 1 1,
    -- 186: x27 = np.zeros((nocc[0], nocc[0]), dtype=types[float])
    .zeros 114 [0, 0],
    -- 187: x27 += einsum("ij->ji", x23) * -1
    .add 114 (.ein [(113, [0, 1])] [1, 0]) (-1) 1,
    -- 188: x117 = np.zeros((nocc[0], nocc[0]), dtype=types[float])
    .zeros 115 [0, 0],
    -- 189: x117 += einsum("ij->ji", x23) * -1
    .add 115 (.ein [(113, [0, 1])] [1, 0]) (-1) 1,
    -- 190: del x23
    .del 113,
    -- 191: x104 = np.zeros((nvir[0], nvir[0]), dtype=types[float])
    .zeros 116 [1, 1],
    -- 192: x104 += einsum("ijab,ijcb->ac", t2.aaaa, x7)
    .add 116 (.ein [(10, [0, 1, 2, 3]), (107, [0, 1, 4, 3])] [2, 4]) 1 1,
    -- 193: x106 += einsum("ab->ab", x104) * -1
    .add 87 (.ein [(116, [0, 1])] [0, 1]) (-1) 1,
    -- 194: del x104
    .del 116,
    -- 195: x231 = np.zeros((nocc[0], nocc[1], nvir[0], nvir[1]), dtype=types[float])
    .zeros 117 [0, 4, 1, 5],
    -- 196: x231 += einsum("ijab,ikac->kjcb", t2.abab, x7)
    .add 117 (.ein [(14, [0, 1, 2, 3]), (107, [0, 4, 2, 5])] [4, 1, 5, 3]) 1 1,
    -- 197: x232 = np.zeros((nocc[0], nocc[1], nvir[0], nvir[1]), dtype=types[float])
    .zeros 118 [0, 4, 1, 5],
    -- 198: x232 += einsum("ijab->ijab", x231) * -1
    .add 118 (.ein [(117, [0, 1, 2, 3])] [0, 1, 2, 3]) (-1) 1,
    -- 199: del x231
    .del 117,
    -- 200: x311 = np.zeros((nbos, nocc[0], nvir[0]), dtype=types[float])
    .zeros 119 [2, 0, 1],
    -- 201: x311 += einsum("wia,ijab->wjb", u11.aa, x7)
    .add 119 (.ein [(19, [0, 1, 2]), (107, [1, 3, 2, 4])] [0, 3, 4]) 1 1,
    -- 202: x312 = np.zeros((nbos, nocc[0], nvir[0]), dtype=types[float])
    .zeros 120 [2, 0, 1],
    -- 203: x312 += einsum("wia->wia", x311) * -1
    .add 120 (.ein [(119, [0, 1, 2])] [0, 1, 2]) (-1) 1,
    -- 204: x360 = np.zeros((nbos, nocc[0], nvir[0]), dtype=types[float])
    .zeros 121 [2, 0, 1],
    -- 205: x360 += einsum("wia->wia", x311) * -1
    .add 121 (.ein [(119, [0, 1, 2])] [0, 1, 2]) (-1) 1,
    -- 206: del x311
    .del 119,
    -- 207: x369 = np.zeros((nbos, nbos, nocc[0], nvir[0]), dtype=types[float])
    .zeros 122 [2, 2, 0, 1],
    -- 208: x369 += einsum("wxia,ijab->wxjb", u12.aa, x7)
    .add 122 (.ein [(20, [0, 1, 2, 3]), (107, [2, 4, 3, 5])] [0, 1, 4, 5]) 1 1,
    -- 209: del x7
    .del 107,
    -- 210: x370 = np.zeros((nbos, nbos, nocc[0], nvir[0]), dtype=types[float])
    .zeros 123 [2, 2, 0, 1],
    -- 211: x370 += einsum("wxia->xwia", x369) * -1
    .add 123 (.ein [(122, [0, 1, 2, 3])] [1, 0, 2, 3]) (-1) 1,
    -- 212: del x369
    .del 122,
    -- 213: x9 += einsum("ia->ia", f.aa.ov)
    .add 96 (.ein [(21, [0, 1])] [0, 1]) 1 1,
    -- 214: x26 = np.zeros((nocc[0], nocc[0]), dtype=types[float])
    .zeros 124 [0, 0],
    -- 215: x26 += einsum("ia,ja->ij", t1.aa, x9)
    .add 124 (.ein [(8, [0, 1]), (96, [2, 1])] [0, 2]) 1 1,
    -- 216: x27 += einsum("ij->ji", x26)
    .add 114 (.ein [(124, [0, 1])] [1, 0]) 1 1,
    -- 217: del x26
    .del 124,
    -- 218: x263 = np.zeros((nocc[0], nocc[0], nocc[1], nvir[1]), dtype=types[float])
    .zeros 125 [0, 0, 4, 5],
    -- 219: x263 += einsum("ia,jkab->jikb", x9, t2.abab)
    .add 125 (.ein [(96, [0, 1]), (14, [2, 3, 1, 4])] [2, 0, 3, 4]) 1 1,
    -- 220: x269 = np.zeros((nocc[0], nocc[0], nocc[1], nvir[1]), dtype=types[float])
    .zeros 126 [0, 0, 4, 5],
    -- 221: x269 += einsum("ijka->jika", x263)
    .add 126 (.ein [(125, [0, 1, 2, 3])] [1, 0, 2, 3]) 1 1,
    -- 222: del x263
    .del 125,
    -- 223: x374 += einsum("ia,wxja->xwij", x9, u12.aa)
    .add 94 (.ein [(96, [0, 1]), (20, [2, 3, 4, 1])] [3, 2, 0, 4]) 1 1,
    -- 224: t1new_bb = np.zeros((nocc[1], nvir[1]), dtype=types[float])
    .zeros 127 [4, 5],
    -- 225: t1new_bb += einsum("ia,ijab->jb", x9, t2.abab)
    .add 127 (.ein [(96, [0, 1]), (14, [0, 2, 1, 3])] [2, 3]) 1 1,
    -- 226: x10 = np.zeros((nocc[0], nocc[0], nvir[0], nvir[0]), dtype=types[float])
    .zeros 128 [0, 0, 1, 1],
    -- 227: x10 += einsum("ijab->jiab", t2.aaaa)
    .add 128 (.ein [(10, [0, 1, 2, 3])] [1, 0, 2, 3]) 1 1,
    -- 228: x10 += einsum("ijab->jiba", t2.aaaa) * -1
    .add 128 (.ein [(10, [0, 1, 2, 3])] [1, 0, 3, 2]) (-1) 1,
    -- 229: x100 = np.zeros((nocc[0], nocc[0], nvir[0], nvir[0]), dtype=types[float])
    .zeros 129 [0, 0, 1, 1],
    -- 230: x100 += einsum("ijab,kica->kjcb", x10, x99) * -1
    .add 129 (.ein [(128, [0, 1, 2, 3]), (85, [4, 0, 5, 2])] [4, 1, 5, 3]) (-1) 1,
    -- 231: del x99
    .del 85,
    -- 232: x119 += einsum("ijab->ijba", x100) * -1
    .add 104 (.ein [(129, [0, 1, 2, 3])] [0, 1, 3, 2]) (-1) 1,
    -- 233: del x100
    .del 129,
    -- 234: t1new_aa += einsum("ia,ijab->jb", x9, x10) * -1
    .add 83 (.ein [(96, [0, 1]), (128, [0, 2, 1, 3])] [2, 3]) (-1) 1,
    -- 235: del x9
    .del 96,
    -- 236: x11 = np.zeros((nocc[1], nvir[1]), dtype=types[float])
    .zeros 130 [4, 5],
    -- 237: x11 += einsum("w,wia->ia", s1, g.bb.bov)
    .add 130 (.ein [(17, [0]), (6, [0, 1, 2])] [1, 2]) 1 1,
    -- 238: x15 = np.zeros((nocc[1], nvir[1]), dtype=types[float])
    .zeros 131 [4, 5],
    -- 239: x15 += einsum("ia->ia", x11)
    .add 131 (.ein [(130, [0, 1])] [0, 1]) 1 1,
    -- 240: x154 = np.zeros((nocc[1], nvir[1]), dtype=types[float])
    .zeros 132 [4, 5],
    -- 241: x154 += einsum("ia->ia", x11)
    .add 132 (.ein [(130, [0, 1])] [0, 1]) 1 1,
    -- 242: x296 = np.zeros((nocc[1], nvir[1]), dtype=types[float])
    .zeros 133 [4, 5],
    -- 243: x296 += einsum("ia->ia", x11)
    .add 133 (.ein [(130, [0, 1])] [0, 1]) 1 1,
    -- 244: x332 = np.zeros((nocc[1], nvir[1]), dtype=types[float])
    .zeros 134 [4, 5],
    -- 245: x332 += einsum("ia->ia", x11)
    .add 134 (.ein [(130, [0, 1])] [0, 1]) 1 1,
    -- 246: x379 = np.zeros((nocc[1], nvir[1]), dtype=types[float])
    .zeros 135 [4, 5],
    -- 247: x379 += einsum("ia->ia", x11)
    .add 135 (.ein [(130, [0, 1])] [0, 1]) 1 1,
    -- 248: del x11
    .del 130,
    -- 249: x12 = np.zeros((nocc[1], nvir[1]), dtype=types[float])
    .zeros 136 [4, 5],
    -- 250: x12 += einsum("ia,iajb->jb", t1.aa, v.aabb.ovov)
    .add 136 (.ein [(8, [0, 1]), (13, [0, 1, 2, 3])] [2, 3]) 1 1,
    -- 251: x15 += einsum("ia->ia", x12)
    .add 131 (.ein [(136, [0, 1])] [0, 1]) 1 1,
    -- 252: x193 = np.zeros((nocc[1], nocc[1], nocc[1], nvir[1]), dtype=types[float])
    .zeros 137 [4, 4, 4, 5],
    -- 253: x193 += einsum("ia,jkab->kjib", x12, t2.bbbb)
    .add 137 (.ein [(136, [0, 1]), (22, [2, 3, 1, 4])] [3, 2, 0, 4]) 1 1,
    -- 254: x196 = np.zeros((nocc[1], nocc[1], nocc[1], nvir[1]), dtype=types[float])
    .zeros 138 [4, 4, 4, 5],
    -- 255: x196 += einsum("ijka->ikja", x193) * -1
    .add 138 (.ein [(137, [0, 1, 2, 3])] [0, 2, 1, 3]) (-1) 1,
    -- 256: del x193
    .del 137,
    -- 257: x206 = np.zeros((nocc[1], nocc[1]), dtype=types[float])
    .zeros 139 [4, 4],
    -- 258: x206 += einsum("ia,ja->ij", t1.bb, x12)
    .add 139 (.ein [(18, [0, 1]), (136, [2, 1])] [0, 2]) 1 1,
    -- 259: x207 = np.zeros((nocc[1], nocc[1]), dtype=types[float])
    .zeros 140 [4, 4],
    -- 260: x207 += einsum("ij->ij", x206)
    .add 140 (.ein [(139, [0, 1])] [0, 1]) 1 1,
    -- 261: del x206
    .del 139,
    -- 262: x296 += einsum("ia->ia", x12)
    .add 133 (.ein [(136, [0, 1])] [0, 1]) 1 1,
    -- 263: x327 = np.zeros((nocc[1], nvir[1]), dtype=types[float])
    .zeros 141 [4, 5],
    -- 264: x327 += einsum("ia->ia", x12)
    .add 141 (.ein [(136, [0, 1])] [0, 1]) 1 1,
    -- 265: del x12
    .del 136,
    -- 266: x13 = np.zeros((nocc[1], nocc[1], nvir[1], nvir[1]), dtype=types[float])
    .zeros 142 [4, 4, 5, 5],
    -- 267: x13 += einsum("iajb->jiab", v.bbbb.ovov)
    .add 142 (.ein [(23, [0, 1, 2, 3])] [2, 0, 1, 3]) 1 1,
    -- 268: x13 += einsum("iajb->jiba", v.bbbb.ovov) * -1
    .add 142 (.ein [(23, [0, 1, 2, 3])] [2, 0, 3, 1]) (-1) 1,
    -- 269: x14 = np.zeros((nocc[1], nvir[1]), dtype=types[float])
    .zeros 143 [4, 5],
    -- 270: x14 += einsum("ia,ijab->jb", t1.bb, x13)
    .add 143 (.ein [(18, [0, 1]), (142, [0, 2, 1, 3])] [2, 3]) 1 1,
    -- 271: x15 += einsum("ia->ia", x14) * -1
    .add 131 (.ein [(143, [0, 1])] [0, 1]) (-1) 1,
    -- 272: x327 += einsum("ia->ia", x14) * -1
    .add 141 (.ein [(143, [0, 1])] [0, 1]) (-1) 1,
    -- 273: del x14
    .del 143,
    -- 274: x328 = np.zeros((nvir[1], nvir[1]), dtype=types[float])
    .zeros 144 [5, 5],
    -- 275: x328 += einsum("ia,ib->ab", t1.bb, x327) * -1
    .add 144 (.ein [(18, [0, 1]), (141, [0, 2])] [1, 2]) (-1) 1,
    -- 276: x401 = np.zeros((nbos, nocc[1], nocc[1]), dtype=types[float])
    .zeros 145 [2, 4, 4],
    -- 277: x401 += einsum("ia,wja->wij", x327, u11.bb)
    .add 145 (.ein [(141, [0, 1]), (24, [2, 3, 1])] [2, 0, 3]) 1 1,
    -- 278: del x327
    .del 141,
    -- 279: x402 = np.zeros((nbos, nocc[1], nocc[1]), dtype=types[float])
    .zeros 146 [2, 4, 4],
    -- 280: x402 += einsum("wij->wji", x401)
    .add 146 (.ein [(145, [0, 1, 2])] [0, 2, 1]) 1 1,
    -- 281: del x401
    .del 145,
    -- 282: x271 = np.zeros((nvir[1], nvir[1]), dtype=types[float])
    .zeros 147 [5, 5],
    -- 283: x271 += einsum("ijab,ijbc->ca", t2.bbbb, x13)
    .add 147 (.ein [(22, [0, 1, 2, 3]), (142, [0, 1, 3, 4])] [4, 2]) 1 1,
    -- 284: x272 = np.zeros((nvir[1], nvir[1]), dtype=types[float])
    .zeros 148 [5, 5],
    -- 285: x272 += einsum("ab->ba", x271) * -1
    .add 148 (.ein [(147, [0, 1])] [1, 0]) (-1) 1,
    -- 286: x328 += einsum("ab->ba", x271) * -1
    .add 144 (.ein [(147, [0, 1])] [1, 0]) (-1) 1,
    -- 287: del x271
    .del 147,
    -- 288: x314 = np.zeros((nbos, nocc[1], nvir[1]), dtype=types[float])
    .zeros 149 [2, 4, 5],
    -- 289: x314 += einsum("wia,ijab->wjb", u11.bb, x13)
    .add 149 (.ein [(24, [0, 1, 2]), (142, [1, 3, 2, 4])] [0, 3, 4]) 1 1,
    -- 290: x315 = np.zeros((nbos, nocc[1], nvir[1]), dtype=types[float])
    .zeros 150 [2, 4, 5],
    -- 291: x315 += einsum("wia->wia", x314) * -1
    .add 150 (.ein [(149, [0, 1, 2])] [0, 1, 2]) (-1) 1,
    -- 292: x405 = np.zeros((nbos, nbos, nocc[1], nocc[1]), dtype=types[float])
    .zeros 151 [2, 2, 4, 4],
    -- 293: x405 += einsum("wia,xja->xwji", u11.bb, x314) * -1
    .add 151 (.ein [(24, [0, 1, 2]), (149, [3, 4, 2])] [3, 0, 4, 1]) (-1) 1,
    -- 294: x406 = np.zeros((nbos, nbos, nocc[1], nocc[1]), dtype=types[float])
    .zeros 152 [2, 2, 4, 4],
    -- 295: x406 += einsum("wxij->xwji", x405)
    .add 152 (.ein [(151, [0, 1, 2, 3])] [1, 0, 3, 2]) 1 1,
    -- 296: del x405
    .del 151,
    -- 297: x408 = np.zeros((nbos, nocc[1], nocc[1]), dtype=types[float])
    .zeros 153 [2, 4, 4],
    -- 298: x408 += einsum("ia,wja->wji", t1.bb, x314) * -1
    .add 153 (.ein [(18, [0, 1]), (149, [2, 3, 1])] [2, 3, 0]) (-1) 1,
    -- 299: del x314
    .del 149,
    -- 300: x409 = np.zeros((nbos, nbos, nocc[1], nvir[1]), dtype=types[float])
    .zeros 154 [2, 2, 4, 5],
    -- 301: x409 += einsum("wia,xij->xwja", u11.bb, x408)
    .add 154 (.ein [(24, [0, 1, 2]), (153, [3, 1, 4])] [3, 0, 4, 2]) 1 1,
    -- 302: del x408
    .del 153,
    -- 303: x410 = np.zeros((nbos, nbos, nocc[1], nvir[1]), dtype=types[float])
    .zeros 155 [2, 2, 4, 5],
    -- 304: x410 += einsum("wxia->xwia", x409)
    .add 155 (.ein [(154, [0, 1, 2, 3])] [1, 0, 2, 3]) 1 1,
    -- 305: del x409
    .del 154,
    -- 306: x372 = np.zeros((nbos, nbos, nocc[1], nvir[1]), dtype=types[float])
    .zeros 156 [2, 2, 4, 5],
    -- 307: x372 += einsum("wxia,ijab->wxjb", u12.bb, x13)
    .add 156 (.ein [(16, [0, 1, 2, 3]), (142, [2, 4, 3, 5])] [0, 1, 4, 5]) 1 1,
    -- 308: del x13
    .del 142,
    -- 309: x373 = np.zeros((nbos, nbos, nocc[1], nvir[1]), dtype=types[float])
    .zeros 157 [2, 2, 4, 5],
    -- 310: x373 += einsum("wxia->xwia", x372) * -1
    .add 157 (.ein [(156, [0, 1, 2, 3])] [1, 0, 2, 3]) (-1) 1,
    -- 311: del x372
    .del 156,
    -- 312: x15 += einsum("ia->ia", f.bb.ov)
    .add 131 (.ein [(25, [0, 1])] [0, 1]) 1 1,
    -- 313: x53 = np.zeros((nocc[1], nocc[1]), dtype=types[float])
    .zeros 158 [4, 4],
    -- 314: x53 += einsum("ia,ja->ij", t1.bb, x15)
    .add 158 (.ein [(18, [0, 1]), (131, [2, 1])] [0, 2]) 1 1,
    -- 315: x54 = np.zeros((nocc[1], nocc[1]), dtype=types[float])
    .zeros 159 [4, 4],
    -- 316: x54 += einsum("ij->ji", x53)
    .add 159 (.ein [(158, [0, 1])] [1, 0]) 1 1,
    -- 317: del x53
    .del 158,
    -- 318: x284 = np.zeros((nocc[0], nocc[1], nocc[1], nvir[0]), dtype=types[float])
    .zeros 160 [0, 4, 4, 1],
    -- 319: x284 += einsum("ia,jkba->jkib", x15, t2.abab)
    .add 160 (.ein [(131, [0, 1]), (14, [2, 3, 4, 1])] [2, 3, 0, 4]) 1 1,
    -- 320: x287 += einsum("ijka->ikja", x284)
    .add 93 (.ein [(160, [0, 1, 2, 3])] [0, 2, 1, 3]) 1 1,
    -- 321: del x284
    .del 160,
    -- 322: x413 = np.zeros((nbos, nbos, nocc[1], nocc[1]), dtype=types[float])
    .zeros 161 [2, 2, 4, 4],
    -- 323: x413 += einsum("ia,wxja->xwij", x15, u12.bb)
    .add 161 (.ein [(131, [0, 1]), (16, [2, 3, 4, 1])] [3, 2, 0, 4]) 1 1,
    -- 324: t1new_aa += einsum("ia,jiba->jb", x15, t2.abab)
    .add 83 (.ein [(131, [0, 1]), (14, [2, 0, 3, 1])] [2, 3]) 1 1,
    -- 325: x16 = np.zeros((nocc[0], nocc[0], nvir[0], nvir[0]), dtype=types[float])
    .zeros 162 [0, 0, 1, 1],
    -- 326: x16 += einsum("iabj->ijba", v.aaaa.ovvo)
    .add 162 (.ein [(26, [0, 1, 2, 3])] [0, 3, 2, 1]) 1 1,
    -- 327: x16 -= einsum("ijab->ijab", v.aaaa.oovv)
    .add 162 (.ein [(27, [0, 1, 2, 3])] [0, 1, 2, 3]) (-1) 1,
    -- 328: x75 = np.zeros((nocc[0], nocc[0], nocc[0], nvir[0]), dtype=types[float])
    .zeros 163 [0, 0, 0, 1],
    -- 329: x75 += einsum("ia,jkba->ijkb", t1.aa, x16)
    .add 163 (.ein [(8, [0, 1]), (162, [2, 3, 4, 1])] [0, 2, 3, 4]) 1 1,
    -- 330: x76 = np.zeros((nocc[0], nocc[0], nocc[0], nvir[0]), dtype=types[float])
    .zeros 164 [0, 0, 0, 1],
    -- 331: x76 -= einsum("ijka->jika", x75)
    .add 164 (.ein [(163, [0, 1, 2, 3])] [1, 0, 2, 3]) (-1) 1,
    -- 332: del x75
    .del 163,
    -- 333: t1new_aa += einsum("ia,ijba->jb", t1.aa, x16)
    .add 83 (.ein [(8, [0, 1]), (162, [0, 2, 3, 1])] [2, 3]) 1 1,
    -- 334: u11new_aa = np.zeros((nbos, nocc[0], nvir[0]), dtype=types[float])
    .zeros 165 [2, 0, 1],
    -- 335: u11new_aa += einsum("wia,ijba->wjb", u11.aa, x16)
    .add 165 (.ein [(19, [0, 1, 2]), (162, [1, 3, 4, 2])] [0, 3, 4]) 1 1,
    -- 336: x17 = np.zeros((nbos, nocc[0], nocc[0]), dtype=types[float])
    .zeros 166 [2, 0, 0],
    -- 337: x17 += einsum("ia,wja->wji", t1.aa, g.aa.bov)
    .add 166 (.ein [(8, [0, 1]), (2, [2, 3, 1])] [2, 3, 0]) 1 1,
    -- 338: x18 = np.zeros((nbos, nocc[0], nocc[0]), dtype=types[float])
    .zeros 167 [2, 0, 0],
    -- 339: x18 += einsum("wij->wij", x17)
    .add 167 (.ein [(166, [0, 1, 2])] [0, 1, 2]) 1 1,
    -- 340: del x17
    .del 166,
    -- 341: x18 += einsum("wij->wij", g.aa.boo)
    .add 167 (.ein [(0, [0, 1, 2])] [0, 1, 2]) 1 1,
    -- 342: x84 = np.zeros((nbos, nocc[0], nvir[0]), dtype=types[float])
    .zeros 168 [2, 0, 1],
    -- 343: x84 += einsum("ia,wij->wja", t1.aa, x18)
    .add 168 (.ein [(8, [0, 1]), (167, [2, 0, 3])] [2, 3, 1]) 1 1,
    -- 344: x85 = np.zeros((nbos, nocc[0], nvir[0]), dtype=types[float])
    .zeros 169 [2, 0, 1],
    -- 345: x85 -= einsum("wia->wia", x84)
    .add 169 (.ein [(168, [0, 1, 2])] [0, 1, 2]) (-1) 1,
    -- 346: del x84
    .del 168,
    -- 347: t1new_aa -= einsum("wia,wij->ja", u11.aa, x18)
    .add 83 (.ein [(19, [0, 1, 2]), (167, [0, 1, 3])] [3, 2]) (-1) 1,
    -- 348: u11new_aa -= einsum("wij,wxia->xja", x18, u12.aa)
    .add 165 (.ein [(167, [0, 1, 2]), (20, [0, 3, 1, 4])] [3, 2, 4]) (-1) 1,
    -- 349: del x18
    .del 167,
    -- 350: x19 = np.zeros((nocc[0], nocc[0]), dtype=types[float])
    .zeros 170 [0, 0],
    -- 351: x19 += einsum("w,wij->ij", s1, g.aa.boo)
    .add 170 (.ein [(17, [0]), (0, [0, 1, 2])] [1, 2]) 1 1,
    -- 352: x27 += einsum("ij->ij", x19)
    .add 114 (.ein [(170, [0, 1])] [0, 1]) 1 1,
    -- 353: x79 = np.zeros((nocc[0], nocc[0]), dtype=types[float])
    .zeros 171 [0, 0],
    -- 354: x79 += einsum("ij->ji", x19)
    .add 171 (.ein [(170, [0, 1])] [1, 0]) 1 1,
    -- 355: del x19
    .del 170,
    -- 356: x20 = np.zeros((nocc[0], nocc[0]), dtype=types[float])
    .zeros 172 [0, 0],
    -- 357: x20 += einsum("wia,wja->ij", g.aa.bov, u11.aa)
    .add 172 (.ein [(2, [0, 1, 2]), (19, [0, 3, 2])] [1, 3]) 1 1,
    -- 358: x27 += einsum("ij->ij", x20)
    .add 114 (.ein [(172, [0, 1])] [0, 1]) 1 1,
    -- 359: x92 = np.zeros((nocc[0], nocc[0]), dtype=types[float])
    .zeros 173 [0, 0],
    -- 360: x92 += einsum("ij->ij", x20)
    .add 173 (.ein [(172, [0, 1])] [0, 1]) 1 1,
    -- 361: del x20
    .del 172,
    -- 362: x21 = np.zeros((nocc[0], nocc[0]), dtype=types[float])
    .zeros 174 [0, 0],
    -- 363: x21 += einsum("ia,jkia->jk", t1.bb, v.aabb.ooov)
    .add 174 (.ein [(18, [0, 1]), (15, [2, 3, 0, 1])] [2, 3]) 1 1,
    -- 364: x27 += einsum("ij->ij", x21)
    .add 114 (.ein [(174, [0, 1])] [0, 1]) 1 1,
    -- 365: x92 += einsum("ij->ij", x21)
    .add 173 (.ein [(174, [0, 1])] [0, 1]) 1 1,
    -- 366: del x21
    .del 174,
    -- 367: x93 = np.zeros((nocc[0], nocc[0], nvir[0], nvir[0]), dtype=types[float])
    .zeros 175 [0, 0, 1, 1],
    -- 368: x93 += einsum("ij,ikab->jkab", x92, t2.aaaa)
    .add 175 (.ein [(173, [0, 1]), (10, [0, 2, 3, 4])] [1, 2, 3, 4]) 1 1,
    -- 369: del x92
    .del 173,
    -- 370: x94 = np.zeros((nocc[0], nocc[0], nvir[0], nvir[0]), dtype=types[float])
    .zeros 176 [0, 0, 1, 1],
    -- 371: x94 -= einsum("ijab->jiba", x93)
    .add 176 (.ein [(175, [0, 1, 2, 3])] [1, 0, 3, 2]) (-1) 1,
    -- 372: del x93
    .del 175,
    -- 373: x22 = np.zeros((nocc[0], nocc[0]), dtype=types[float])
    .zeros 177 [0, 0],
    -- 374: x22 += einsum("ijab,kajb->ik", t2.abab, v.aabb.ovov)
    .add 177 (.ein [(14, [0, 1, 2, 3]), (13, [4, 2, 1, 3])] [0, 4]) 1 1,
    -- 375: x27 += einsum("ij->ji", x22)
    .add 114 (.ein [(177, [0, 1])] [1, 0]) 1 1,
    -- 376: x117 += einsum("ij->ji", x22)
    .add 115 (.ein [(177, [0, 1])] [1, 0]) 1 1,
    -- 377: del x22
    .del 177,
    -- 378: x24 = np.zeros((nocc[0], nocc[0], nocc[0], nvir[0]), dtype=types[float])
    .zeros 178 [0, 0, 0, 1],
    -- 379: x24 += einsum("ijka->ikja", v.aaaa.ooov)
    .add 178 (.ein [(11, [0, 1, 2, 3])] [0, 2, 1, 3]) 1 1,
    -- 380: x24 += einsum("ijka->kija", v.aaaa.ooov) * -1
    .add 178 (.ein [(11, [0, 1, 2, 3])] [2, 0, 1, 3]) (-1) 1,
    -- 381: x25 = np.zeros((nocc[0], nocc[0]), dtype=types[float])
    .zeros 179 [0, 0],
    -- 382: x25 += einsum("ia,ijka->jk", t1.aa, x24)
    .add 179 (.ein [(8, [0, 1]), (178, [0, 2, 3, 1])] [2, 3]) 1 1,
    -- 383: x27 += einsum("ij->ij", x25) * -1
    .add 114 (.ein [(179, [0, 1])] [0, 1]) (-1) 1,
    -- 384: x117 += einsum("ij->ij", x25) * -1
    .add 115 (.ein [(179, [0, 1])] [0, 1]) (-1) 1,
    -- 385: del x25
    .del 179,
    -- 386: x118 = np.zeros((nocc[0], nocc[0], nvir[0], nvir[0]), dtype=types[float])
    .zeros 180 [0, 0, 1, 1],
    -- 387: x118 += einsum("ij,ikab->jkab", x117, t2.aaaa)
    .add 180 (.ein [(115, [0, 1]), (10, [0, 2, 3, 4])] [1, 2, 3, 4]) 1 1,
    -- 388: del x117
    .del 115,
    -- 389: x119 += einsum("ijab->jiba", x118)
    .add 104 (.ein [(180, [0, 1, 2, 3])] [1, 0, 3, 2]) 1 1,
    -- 390: del x118
    .del 180,
    -- 391: x114 = np.zeros((nocc[0], nocc[0], nocc[0], nvir[0]), dtype=types[float])
    .zeros 181 [0, 0, 0, 1],
    -- 392: x114 += einsum("ijab,kila->jklb", x10, x24)
    .add 181 (.ein [(128, [0, 1, 2, 3]), (178, [4, 0, 5, 2])] [1, 4, 5, 3]) 1 1,
    -- 393: x115 += einsum("ijka->ijka", x114)
    .add 91 (.ein [(181, [0, 1, 2, 3])] [0, 1, 2, 3]) 1 1,
    -- 394: del x114
    .del 181,
    -- 395: x322 = np.zeros((nbos, nocc[0], nocc[0]), dtype=types[float])
    .zeros 182 [2, 0, 0],
    -- 396: x322 += einsum("wia,ijka->wjk", u11.aa, x24) * -1
    .add 182 (.ein [(19, [0, 1, 2]), (178, [1, 3, 4, 2])] [0, 3, 4]) (-1) 1,
    -- 397: del x24
    .del 178,
    -- 398: x27 += einsum("ij->ij", f.aa.oo)
    .add 114 (.ein [(28, [0, 1])] [0, 1]) 1 1,
    -- 399: x290 = np.zeros((nocc[0], nocc[1], nvir[0], nvir[1]), dtype=types[float])
    .zeros 183 [0, 4, 1, 5],
    -- 400: x290 += einsum("ij,ikab->jkab", x27, t2.abab)
    .add 183 (.ein [(114, [0, 1]), (14, [0, 2, 3, 4])] [1, 2, 3, 4]) 1 1,
    -- 401: t2new_baba = np.zeros((nocc[1], nocc[0], nvir[1], nvir[0]), dtype=types[float])
    .zeros 184 [4, 0, 5, 1],
    -- 402: t2new_baba += einsum("ijab->jiba", x290) * -1
    .add 184 (.ein [(183, [0, 1, 2, 3])] [1, 0, 3, 2]) (-1) 1,
    -- 403: t2new_abab = np.zeros((nocc[0], nocc[1], nvir[0], nvir[1]), dtype=types[float])
    .zeros 185 [0, 4, 1, 5],
    -- 404: t2new_abab += einsum("ijab->ijab", x290) * -1
    .add 185 (.ein [(183, [0, 1, 2, 3])] [0, 1, 2, 3]) (-1) 1,
    -- 405: del x290
    .del 183,
    -- 406: t1new_aa += einsum("ia,ij->ja", t1.aa, x27) * -1
    .add 83 (.ein [(8, [0, 1]), (114, [0, 2])] [2, 1]) (-1) 1,
    -- 407: u11new_aa += einsum("ij,wia->wja", x27, u11.aa) * -1
    .add 165 (.ein [(114, [0, 1]), (19, [2, 0, 3])] [2, 1, 3]) (-1) 1,
    -- 408: u12new_aa = np.zeros((nbos, nbos, nocc[0], nvir[0]), dtype=types[float])
    .zeros 186 [2, 2, 0, 1],
    -- 409: u12new_aa += einsum("ij,wxia->xwja", x27, u12.aa) * -1
    .add 186 (.ein [(114, [0, 1]), (20, [2, 3, 0, 4])] [3, 2, 1, 4]) (-1) 1,
    -- 410: del x27
    .del 114,
    -- 411: x28 = np.zeros((nvir[0], nvir[0]), dtype=types[float])
    .zeros 187 [1, 1],
    -- 412: x28 += einsum("w,wab->ab", s1, g.aa.bvv)
    .add 187 (.ein [(17, [0]), (3, [0, 1, 2])] [1, 2]) 1 1,
    -- 413: x32 = np.zeros((nvir[0], nvir[0]), dtype=types[float])
    .zeros 188 [1, 1],
    -- 414: x32 += einsum("ab->ab", x28)
    .add 188 (.ein [(187, [0, 1])] [0, 1]) 1 1,
    -- 415: x87 = np.zeros((nvir[0], nvir[0]), dtype=types[float])
    .zeros 189 [1, 1],
    -- 416: x87 += einsum("ab->ab", x28)
    .add 189 (.ein [(187, [0, 1])] [0, 1]) 1 1,
    -- 417: x276 = np.zeros((nvir[0], nvir[0]), dtype=types[float])
    .zeros 190 [1, 1],
    -- 418: x276 += einsum("ab->ab", x28)
    .add 190 (.ein [(187, [0, 1])] [0, 1]) 1 1,
    -- 419: x317 += einsum("ab->ab", x28)
    .add 109 (.ein [(187, [0, 1])] [0, 1]) 1 1,
    -- 420: del x28
    .del 187,
    -- 421: x29 = np.zeros((nvir[0], nvir[0]), dtype=types[float])
    .zeros 191 [1, 1],
    -- 422: x29 += einsum("ia,iabc->bc", t1.bb, v.bbaa.ovvv)
    .add 191 (.ein [(18, [0, 1]), (29, [0, 1, 2, 3])] [2, 3]) 1 1,
    -- 423: x32 += einsum("ab->ab", x29)
    .add 188 (.ein [(191, [0, 1])] [0, 1]) 1 1,
    -- 424: x90 = np.zeros((nvir[0], nvir[0]), dtype=types[float])
    .zeros 192 [1, 1],
    -- 425: x90 -= einsum("ab->ba", x29)
    .add 192 (.ein [(191, [0, 1])] [1, 0]) (-1) 1,
    -- 426: x276 += einsum("ab->ab", x29)
    .add 190 (.ein [(191, [0, 1])] [0, 1]) 1 1,
    -- 427: x317 += einsum("ab->ab", x29)
    .add 109 (.ein [(191, [0, 1])] [0, 1]) 1 1,
    -- 428: del x29
    .del 191,
    -- 429: x30 = np.zeros((nocc[0], nvir[0], nvir[0], nvir[0]), dtype=types[float])
    .zeros 193 [0, 1, 1, 1],
    -- 430: x30 += einsum("iabc->ibac", v.aaaa.ovvv)
    .add 193 (.ein [(12, [0, 1, 2, 3])] [0, 2, 1, 3]) 1 1,
    -- 431: x30 += einsum("iabc->ibca", v.aaaa.ovvv) * -1
    .add 193 (.ein [(12, [0, 1, 2, 3])] [0, 2, 3, 1]) (-1) 1,
    -- 432: x31 = np.zeros((nvir[0], nvir[0]), dtype=types[float])
    .zeros 194 [1, 1],
    -- 433: x31 += einsum("ia,ibca->bc", t1.aa, x30)
    .add 194 (.ein [(8, [0, 1]), (193, [0, 2, 3, 1])] [2, 3]) 1 1,
    -- 434: del x30
    .del 193,
    -- 435: x32 += einsum("ab->ab", x31) * -1
    .add 188 (.ein [(194, [0, 1])] [0, 1]) (-1) 1,
    -- 436: x276 += einsum("ab->ab", x31) * -1
    .add 190 (.ein [(194, [0, 1])] [0, 1]) (-1) 1,
    -- 437: x317 += einsum("ab->ab", x31) * -1
    .add 109 (.ein [(194, [0, 1])] [0, 1]) (-1) 1,
    -- 438: del x31
    .del 194,
    -- 439: x32 += einsum("ab->ab", f.aa.vv)
    .add 188 (.ein [(30, [0, 1])] [0, 1]) 1 1,
    -- 440: t1new_aa += einsum("ia,ba->ib", t1.aa, x32)
    .add 83 (.ein [(8, [0, 1]), (188, [2, 1])] [0, 2]) 1 1,
    -- 441: del x32
    .del 188,
    -- 442: x33 = np.zeros((nbos), dtype=types[float])
    .zeros 195 [2],
    -- 443: x33 += einsum("ia,wia->w", t1.aa, g.aa.bov)
    .add 195 (.ein [(8, [0, 1]), (2, [2, 0, 1])] [2]) 1 1,
    -- 444: x35 = np.zeros((nbos), dtype=types[float])
    .zeros 196 [2],
    -- 445: x35 += einsum("w->w", x33)
    .add 196 (.ein [(195, [0])] [0]) 1 1,
    -- 446: del x33
    .del 195,
    -- 447: x34 = np.zeros((nbos), dtype=types[float])
    .zeros 197 [2],
    -- 448: x34 += einsum("ia,wia->w", t1.bb, g.bb.bov)
    .add 197 (.ein [(18, [0, 1]), (6, [2, 0, 1])] [2]) 1 1,
    -- 449: x35 += einsum("w->w", x34)
    .add 196 (.ein [(197, [0])] [0]) 1 1,
    -- 450: del x34
    .del 197,
    -- 451: x35 += einsum("w->w", G)
    .add 196 (.ein [(31, [0])] [0]) 1 1,
    -- 452: t1new_aa += einsum("w,wia->ia", x35, u11.aa)
    .add 83 (.ein [(196, [0]), (19, [0, 1, 2])] [1, 2]) 1 1,
    -- 453: t1new_bb += einsum("w,wia->ia", x35, u11.bb)
    .add 127 (.ein [(196, [0]), (24, [0, 1, 2])] [1, 2]) 1 1,
    -- 454: s1new = np.zeros((nbos), dtype=types[float])
    .zeros 198 [2],
    -- 455: s1new += einsum("w,wx->x", x35, s2)
    .add 198 (.ein [(196, [0]), (32, [0, 1])] [1]) 1 1,
    -- 456: u11new_aa += einsum("w,wxia->xia", x35, u12.aa)
    .add 165 (.ein [(196, [0]), (20, [0, 1, 2, 3])] [1, 2, 3]) 1 1,
    -- 457: u11new_bb = np.zeros((nbos, nocc[1], nvir[1]), dtype=types[float])
    .zeros 199 [2, 4, 5],
    -- 458: u11new_bb += einsum("w,wxia->xia", x35, u12.bb)
    .add 199 (.ein [(196, [0]), (16, [0, 1, 2, 3])] [1, 2, 3]) 1 1,
    -- 459: del x35
    .del 196,
    -- 460: x36 = np.zeros((nocc[1], nocc[1], nocc[1], nvir[1]), dtype=types[float])
    .zeros 200 [4, 4, 4, 5],
    -- 461: x36 += einsum("ia,jbka->ijkb", t1.bb, v.bbbb.ovov)
    .add 200 (.ein [(18, [0, 1]), (23, [2, 3, 4, 1])] [0, 2, 4, 3]) 1 1,
    -- 462: x37 = np.zeros((nocc[1], nocc[1], nocc[1], nvir[1]), dtype=types[float])
    .zeros 201 [4, 4, 4, 5],
    -- 463: x37 += einsum("ijka->ijka", x36) * -1
    .add 201 (.ein [(200, [0, 1, 2, 3])] [0, 1, 2, 3]) (-1) 1,
    -- 464: x37 += einsum("ijka->ikja", x36)
    .add 201 (.ein [(200, [0, 1, 2, 3])] [0, 2, 1, 3]) 1 1,
    -- 465: x151 = np.zeros((nocc[1], nocc[1], nocc[1], nvir[1]), dtype=types[float])
    .zeros 202 [4, 4, 4, 5],
    -- 466: x151 -= einsum("ijka->ijka", x36)
    .add 202 (.ein [(200, [0, 1, 2, 3])] [0, 1, 2, 3]) (-1) 1,
    -- 467: x151 += einsum("ijka->ikja", x36)
    .add 202 (.ein [(200, [0, 1, 2, 3])] [0, 2, 1, 3]) 1 1,
    -- 468: x216 = np.zeros((nocc[1], nocc[1], nocc[1], nocc[1]), dtype=types[float])
    .zeros 203 [4, 4, 4, 4],
    -- 469: x216 += einsum("ia,jkla->jilk", t1.bb, x36)
    .add 203 (.ein [(18, [0, 1]), (200, [2, 3, 4, 1])] [2, 0, 4, 3]) 1 1,
    -- 470: x217 = np.zeros((nocc[1], nocc[1], nocc[1], nocc[1]), dtype=types[float])
    .zeros 204 [4, 4, 4, 4],
    -- 471: x217 += einsum("ijkl->ijkl", x216)
    .add 204 (.ein [(203, [0, 1, 2, 3])] [0, 1, 2, 3]) 1 1,
    -- 472: x223 = np.zeros((nocc[1], nocc[1], nocc[1], nvir[1]), dtype=types[float])
    .zeros 205 [4, 4, 4, 5],
    -- 473: x223 += einsum("ia,jkli->jkla", t1.bb, x216)
    .add 205 (.ein [(18, [0, 1]), (203, [2, 3, 4, 0])] [2, 3, 4, 1]) 1 1,
    -- 474: del x216
    .del 203,
    -- 475: x224 = np.zeros((nocc[1], nocc[1], nvir[1], nvir[1]), dtype=types[float])
    .zeros 206 [4, 4, 5, 5],
    -- 476: x224 += einsum("ia,jkib->jkab", t1.bb, x223)
    .add 206 (.ein [(18, [0, 1]), (205, [2, 3, 0, 4])] [2, 3, 1, 4]) 1 1,
    -- 477: del x223
    .del 205,
    -- 478: x228 = np.zeros((nocc[1], nocc[1], nvir[1], nvir[1]), dtype=types[float])
    .zeros 207 [4, 4, 5, 5],
    -- 479: x228 += einsum("ijab->ijab", x224)
    .add 207 (.ein [(206, [0, 1, 2, 3])] [0, 1, 2, 3]) 1 1,
    -- 480: del x224
    .del 206,
    -- 481: x280 = np.zeros((nocc[1], nocc[1], nocc[1], nvir[1]), dtype=types[float])
    .zeros 208 [4, 4, 4, 5],
    -- 482: x280 += einsum("ijka->jkia", x36) * -1
    .add 208 (.ein [(200, [0, 1, 2, 3])] [1, 2, 0, 3]) (-1) 1,
    -- 483: x280 += einsum("ijka->kjia", x36)
    .add 208 (.ein [(200, [0, 1, 2, 3])] [2, 1, 0, 3]) 1 1,
    -- 484: del x36
    .del 200,
    -- 485: x37 += einsum("ijka->jika", v.bbbb.ooov)
    .add 201 (.ein [(33, [0, 1, 2, 3])] [1, 0, 2, 3]) 1 1,
    -- 486: x37 += einsum("ijka->jkia", v.bbbb.ooov) * -1
    .add 201 (.ein [(33, [0, 1, 2, 3])] [1, 2, 0, 3]) (-1) 1,
    -- 487: t1new_bb += einsum("ijab,kijb->ka", t2.bbbb, x37) * -1
    .add 127 (.ein [(22, [0, 1, 2, 3]), (201, [4, 0, 1, 3])] [4, 2]) (-1) 1,
    -- 488: del x37
    .del 201,
    -- 489: x38 = np.zeros((nocc[1], nvir[1], nvir[1], nvir[1]), dtype=types[float])
    .zeros 209 [4, 5, 5, 5],
    -- 490: x38 += einsum("iabc->ibac", v.bbbb.ovvv) * -1
    .add 209 (.ein [(34, [0, 1, 2, 3])] [0, 2, 1, 3]) (-1) 1,
    -- 491: x38 += einsum("iabc->ibca", v.bbbb.ovvv)
    .add 209 (.ein [(34, [0, 1, 2, 3])] [0, 2, 3, 1]) 1 1,
    -- 492: x57 = np.zeros((nvir[1], nvir[1]), dtype=types[float])
    .zeros 210 [5, 5],
    -- 493: x57 += einsum("ia,ibac->bc", t1.bb, x38)
    .add 210 (.ein [(18, [0, 1]), (209, [0, 2, 1, 3])] [2, 3]) 1 1,
    -- 494: x58 = np.zeros((nvir[1], nvir[1]), dtype=types[float])
    .zeros 211 [5, 5],
    -- 495: x58 += einsum("ab->ab", x57) * -1
    .add 211 (.ein [(210, [0, 1])] [0, 1]) (-1) 1,
    -- 496: x272 += einsum("ab->ab", x57) * -1
    .add 148 (.ein [(210, [0, 1])] [0, 1]) (-1) 1,
    -- 497: x328 += einsum("ab->ab", x57) * -1
    .add 144 (.ein [(210, [0, 1])] [0, 1]) (-1) 1,
    -- 498: del x57
    .del 210,
    -- 499: t1new_bb += einsum("ijab,icab->jc", t2.bbbb, x38) * -1
    .add 127 (.ein [(22, [0, 1, 2, 3]), (209, [0, 4, 2, 3])] [1, 4]) (-1) 1,
    -- 500: del x38
    .del 209,
    -- 501: x39 = np.zeros((nocc[0], nocc[1], nocc[1], nvir[0]), dtype=types[float])
    .zeros 212 [0, 4, 4, 1],
    -- 502: x39 += einsum("ia,jbka->jikb", t1.bb, v.aabb.ovov)
    .add 212 (.ein [(18, [0, 1]), (13, [2, 3, 4, 1])] [2, 0, 4, 3]) 1 1,
    -- 503: x40 = np.zeros((nocc[0], nocc[1], nocc[1], nvir[0]), dtype=types[float])
    .zeros 213 [0, 4, 4, 1],
    -- 504: x40 += einsum("ijka->ikja", x39)
    .add 213 (.ein [(212, [0, 1, 2, 3])] [0, 2, 1, 3]) 1 1,
    -- 505: x192 = np.zeros((nocc[1], nocc[1], nocc[1], nvir[1]), dtype=types[float])
    .zeros 214 [4, 4, 4, 5],
    -- 506: x192 += einsum("ijab,ikla->kjlb", t2.abab, x39)
    .add 214 (.ein [(14, [0, 1, 2, 3]), (212, [0, 4, 5, 2])] [4, 1, 5, 3]) 1 1,
    -- 507: x196 += einsum("ijka->ikja", x192)
    .add 138 (.ein [(214, [0, 1, 2, 3])] [0, 2, 1, 3]) 1 1,
    -- 508: del x192
    .del 214,
    -- 509: x250 = np.zeros((nocc[0], nocc[1], nocc[1], nvir[0]), dtype=types[float])
    .zeros 215 [0, 4, 4, 1],
    -- 510: x250 += einsum("ijka->ikja", x39)
    .add 215 (.ein [(212, [0, 1, 2, 3])] [0, 2, 1, 3]) 1 1,
    -- 511: del x39
    .del 212,
    -- 512: x40 += einsum("iajk->ijka", v.aabb.ovoo)
    .add 213 (.ein [(35, [0, 1, 2, 3])] [0, 2, 3, 1]) 1 1,
    -- 513: x262 = np.zeros((nocc[0], nocc[0], nocc[1], nvir[1]), dtype=types[float])
    .zeros 216 [0, 0, 4, 5],
    -- 514: x262 += einsum("ijab,kjla->iklb", t2.abab, x40)
    .add 216 (.ein [(14, [0, 1, 2, 3]), (213, [4, 1, 5, 2])] [0, 4, 5, 3]) 1 1,
    -- 515: x269 += einsum("ijka->jika", x262) * -1
    .add 126 (.ein [(216, [0, 1, 2, 3])] [1, 0, 2, 3]) (-1) 1,
    -- 516: del x262
    .del 216,
    -- 517: x264 = np.zeros((nocc[0], nocc[0], nocc[1], nocc[1]), dtype=types[float])
    .zeros 217 [0, 0, 4, 4],
    -- 518: x264 += einsum("ia,jkla->ijkl", t1.aa, x40)
    .add 217 (.ein [(8, [0, 1]), (213, [2, 3, 4, 1])] [0, 2, 3, 4]) 1 1,
    -- 519: x265 = np.zeros((nocc[0], nocc[0], nocc[1], nocc[1]), dtype=types[float])
    .zeros 218 [0, 0, 4, 4],
    -- 520: x265 += einsum("ijkl->jikl", x264)
    .add 218 (.ein [(217, [0, 1, 2, 3])] [1, 0, 2, 3]) 1 1,
    -- 521: del x264
    .del 217,
    -- 522: x282 = np.zeros((nocc[0], nocc[1], nocc[1], nvir[0]), dtype=types[float])
    .zeros 219 [0, 4, 4, 1],
    -- 523: x282 += einsum("ijab,ikla->jklb", x10, x40)
    .add 219 (.ein [(128, [0, 1, 2, 3]), (213, [0, 4, 5, 2])] [1, 4, 5, 3]) 1 1,
    -- 524: x287 += einsum("ijka->ijka", x282) * -1
    .add 93 (.ein [(219, [0, 1, 2, 3])] [0, 1, 2, 3]) (-1) 1,
    -- 525: del x282
    .del 219,
    -- 526: x413 += einsum("wxia,ijka->xwjk", u12.aa, x40)
    .add 161 (.ein [(20, [0, 1, 2, 3]), (213, [2, 4, 5, 3])] [1, 0, 4, 5]) 1 1,
    -- 527: t1new_bb += einsum("ijab,ijka->kb", t2.abab, x40) * -1
    .add 127 (.ein [(14, [0, 1, 2, 3]), (213, [0, 1, 4, 2])] [4, 3]) (-1) 1,
    -- 528: del x40
    .del 213,
    -- 529: x41 = np.zeros((nocc[1], nocc[1], nvir[1], nvir[1]), dtype=types[float])
    .zeros 220 [4, 4, 5, 5],
    -- 530: x41 += einsum("ijab->jiab", t2.bbbb)
    .add 220 (.ein [(22, [0, 1, 2, 3])] [1, 0, 2, 3]) 1 1,
    -- 531: x41 += einsum("ijab->jiba", t2.bbbb) * -1
    .add 220 (.ein [(22, [0, 1, 2, 3])] [1, 0, 3, 2]) (-1) 1,
    -- 532: x186 = np.zeros((nocc[0], nocc[1], nvir[0], nvir[1]), dtype=types[float])
    .zeros 221 [0, 4, 1, 5],
    -- 533: x186 += einsum("iajb,jkbc->ikac", v.aabb.ovov, x41)
    .add 221 (.ein [(13, [0, 1, 2, 3]), (220, [2, 4, 3, 5])] [0, 4, 1, 5]) 1 1,
    -- 534: x187 = np.zeros((nocc[1], nocc[1], nvir[1], nvir[1]), dtype=types[float])
    .zeros 222 [4, 4, 5, 5],
    -- 535: x187 += einsum("ijab,ikac->kjcb", t2.abab, x186) * -1
    .add 222 (.ein [(14, [0, 1, 2, 3]), (221, [0, 4, 2, 5])] [4, 1, 5, 3]) (-1) 1,
    -- 536: x209 = np.zeros((nocc[1], nocc[1], nvir[1], nvir[1]), dtype=types[float])
    .zeros 223 [4, 4, 5, 5],
    -- 537: x209 += einsum("ijab->jiba", x187) * -1
    .add 223 (.ein [(222, [0, 1, 2, 3])] [1, 0, 3, 2]) (-1) 1,
    -- 538: del x187
    .del 222,
    -- 539: x232 += einsum("ijab->ijab", x186) * -1
    .add 118 (.ein [(221, [0, 1, 2, 3])] [0, 1, 2, 3]) (-1) 1,
    -- 540: del x186
    .del 221,
    -- 541: x261 = np.zeros((nocc[0], nocc[0], nocc[1], nvir[1]), dtype=types[float])
    .zeros 224 [0, 0, 4, 5],
    -- 542: x261 += einsum("ijka,klab->ijlb", x4, x41)
    .add 224 (.ein [(89, [0, 1, 2, 3]), (220, [2, 4, 3, 5])] [0, 1, 4, 5]) 1 1,
    -- 543: del x4
    .del 89,
    -- 544: x269 += einsum("ijka->ijka", x261) * -1
    .add 126 (.ein [(224, [0, 1, 2, 3])] [0, 1, 2, 3]) (-1) 1,
    -- 545: del x261
    .del 224,
    -- 546: t1new_bb += einsum("ia,ijab->jb", x15, x41) * -1
    .add 127 (.ein [(131, [0, 1]), (220, [0, 2, 1, 3])] [2, 3]) (-1) 1,
    -- 547: del x15
    .del 131,
    -- 548: x42 = np.zeros((nocc[1], nocc[1], nvir[1], nvir[1]), dtype=types[float])
    .zeros 225 [4, 4, 5, 5],
    -- 549: x42 += einsum("iabj->ijba", v.bbbb.ovvo)
    .add 225 (.ein [(36, [0, 1, 2, 3])] [0, 3, 2, 1]) 1 1,
    -- 550: x42 -= einsum("ijab->ijab", v.bbbb.oovv)
    .add 225 (.ein [(37, [0, 1, 2, 3])] [0, 1, 2, 3]) (-1) 1,
    -- 551: x156 = np.zeros((nocc[1], nocc[1], nocc[1], nvir[1]), dtype=types[float])
    .zeros 226 [4, 4, 4, 5],
    -- 552: x156 += einsum("ia,jkba->ijkb", t1.bb, x42)
    .add 226 (.ein [(18, [0, 1]), (225, [2, 3, 4, 1])] [0, 2, 3, 4]) 1 1,
    -- 553: x157 = np.zeros((nocc[1], nocc[1], nocc[1], nvir[1]), dtype=types[float])
    .zeros 227 [4, 4, 4, 5],
    -- 554: x157 -= einsum("ijka->jika", x156)
    .add 227 (.ein [(226, [0, 1, 2, 3])] [1, 0, 2, 3]) (-1) 1,
    -- 555: del x156
    .del 226,
    -- 556: t1new_bb += einsum("ia,ijba->jb", t1.bb, x42)
    .add 127 (.ein [(18, [0, 1]), (225, [0, 2, 3, 1])] [2, 3]) 1 1,
    -- 557: u11new_bb += einsum("wia,ijba->wjb", u11.bb, x42)
    .add 199 (.ein [(24, [0, 1, 2]), (225, [1, 3, 4, 2])] [0, 3, 4]) 1 1,
    -- 558: x43 = np.zeros((nbos, nocc[1], nocc[1]), dtype=types[float])
    .zeros 228 [2, 4, 4],
    -- 559: x43 += einsum("ia,wja->wji", t1.bb, g.bb.bov)
    .add 228 (.ein [(18, [0, 1]), (6, [2, 3, 1])] [2, 3, 0]) 1 1,
    -- 560: x44 = np.zeros((nbos, nocc[1], nocc[1]), dtype=types[float])
    .zeros 229 [2, 4, 4],
    -- 561: x44 += einsum("wij->wij", x43)
    .add 229 (.ein [(228, [0, 1, 2])] [0, 1, 2]) 1 1,
    -- 562: del x43
    .del 228,
    -- 563: x44 += einsum("wij->wij", g.bb.boo)
    .add 229 (.ein [(4, [0, 1, 2])] [0, 1, 2]) 1 1,
    -- 564: x166 = np.zeros((nbos, nocc[1], nvir[1]), dtype=types[float])
    .zeros 230 [2, 4, 5],
    -- 565: x166 += einsum("ia,wij->wja", t1.bb, x44)
    .add 230 (.ein [(18, [0, 1]), (229, [2, 0, 3])] [2, 3, 1]) 1 1,
    -- 566: x167 = np.zeros((nbos, nocc[1], nvir[1]), dtype=types[float])
    .zeros 231 [2, 4, 5],
    -- 567: x167 -= einsum("wia->wia", x166)
    .add 231 (.ein [(230, [0, 1, 2])] [0, 1, 2]) (-1) 1,
    -- 568: del x166
    .del 230,
    -- 569: t1new_bb -= einsum("wia,wij->ja", u11.bb, x44)
    .add 127 (.ein [(24, [0, 1, 2]), (229, [0, 1, 3])] [3, 2]) (-1) 1,
    -- 570: u11new_bb -= einsum("wij,wxia->xja", x44, u12.bb)
    .add 199 (.ein [(229, [0, 1, 2]), (16, [0, 3, 1, 4])] [3, 2, 4]) (-1) 1,
    -- 571: del x44
    .del 229,
    -- 572: x45 = np.zeros((nocc[1], nocc[1]), dtype=types[float])
    .zeros 232 [4, 4],
    -- 573: x45 += einsum("w,wij->ij", s1, g.bb.boo)
    .add 232 (.ein [(17, [0]), (4, [0, 1, 2])] [1, 2]) 1 1,
    -- 574: x54 += einsum("ij->ij", x45)
    .add 159 (.ein [(232, [0, 1])] [0, 1]) 1 1,
    -- 575: x160 = np.zeros((nocc[1], nocc[1]), dtype=types[float])
    .zeros 233 [4, 4],
    -- 576: x160 += einsum("ij->ji", x45)
    .add 233 (.ein [(232, [0, 1])] [1, 0]) 1 1,
    -- 577: del x45
    .del 232,
    -- 578: x46 = np.zeros((nocc[1], nocc[1]), dtype=types[float])
    .zeros 234 [4, 4],
    -- 579: x46 += einsum("wia,wja->ij", g.bb.bov, u11.bb)
    .add 234 (.ein [(6, [0, 1, 2]), (24, [0, 3, 2])] [1, 3]) 1 1,
    -- 580: x54 += einsum("ij->ij", x46)
    .add 159 (.ein [(234, [0, 1])] [0, 1]) 1 1,
    -- 581: x174 = np.zeros((nocc[1], nocc[1]), dtype=types[float])
    .zeros 235 [4, 4],
    -- 582: x174 += einsum("ij->ij", x46)
    .add 235 (.ein [(234, [0, 1])] [0, 1]) 1 1,
    -- 583: del x46
    .del 234,
    -- 584: x47 = np.zeros((nocc[1], nocc[1]), dtype=types[float])
    .zeros 236 [4, 4],
    -- 585: x47 += einsum("ia,iajk->jk", t1.aa, v.aabb.ovoo)
    .add 236 (.ein [(8, [0, 1]), (35, [0, 1, 2, 3])] [2, 3]) 1 1,
    -- 586: x54 += einsum("ij->ij", x47)
    .add 159 (.ein [(236, [0, 1])] [0, 1]) 1 1,
    -- 587: x174 += einsum("ij->ij", x47)
    .add 235 (.ein [(236, [0, 1])] [0, 1]) 1 1,
    -- 588: del x47
    .del 236,
    -- 589: x175 = np.zeros((nocc[1], nocc[1], nvir[1], nvir[1]), dtype=types[float])
    .zeros 237 [4, 4, 5, 5],
    -- 590: x175 += einsum("ij,ikab->jkab", x174, t2.bbbb)
    .add 237 (.ein [(235, [0, 1]), (22, [0, 2, 3, 4])] [1, 2, 3, 4]) 1 1,
    -- 591: del x174
    .del 235,
    -- 592: x176 = np.zeros((nocc[1], nocc[1], nvir[1], nvir[1]), dtype=types[float])
    .zeros 238 [4, 4, 5, 5],
    -- 593: x176 -= einsum("ijab->jiba", x175)
    .add 238 (.ein [(237, [0, 1, 2, 3])] [1, 0, 3, 2]) (-1) 1,
    -- 594: del x175
    .del 237,
    -- 595: x48 = np.zeros((nocc[1], nocc[1]), dtype=types[float])
    .zeros 239 [4, 4],
    -- 596: x48 += einsum("ijab,iakb->jk", t2.abab, v.aabb.ovov)
    .add 239 (.ein [(14, [0, 1, 2, 3]), (13, [0, 2, 4, 3])] [1, 4]) 1 1,
    -- 597: x54 += einsum("ij->ji", x48)
    .add 159 (.ein [(239, [0, 1])] [1, 0]) 1 1,
    -- 598: x207 += einsum("ij->ij", x48)
    .add 140 (.ein [(239, [0, 1])] [0, 1]) 1 1,
    -- 599: del x48
    .del 239,
    -- 600: x208 = np.zeros((nocc[1], nocc[1], nvir[1], nvir[1]), dtype=types[float])
    .zeros 240 [4, 4, 5, 5],
    -- 601: x208 += einsum("ij,jkab->ikab", x207, t2.bbbb)
    .add 240 (.ein [(140, [0, 1]), (22, [1, 2, 3, 4])] [0, 2, 3, 4]) 1 1,
    -- 602: del x207
    .del 140,
    -- 603: x209 += einsum("ijab->ijba", x208) * -1
    .add 223 (.ein [(240, [0, 1, 2, 3])] [0, 1, 3, 2]) (-1) 1,
    -- 604: del x208
    .del 240,
    -- 605: x49 = np.zeros((nocc[1], nocc[1], nvir[1], nvir[1]), dtype=types[float])
    .zeros 241 [4, 4, 5, 5],
    -- 606: x49 += einsum("iajb->jiab", v.bbbb.ovov) * -1
    .add 241 (.ein [(23, [0, 1, 2, 3])] [2, 0, 1, 3]) (-1) 1,
    -- 607: x49 += einsum("iajb->jiba", v.bbbb.ovov)
    .add 241 (.ein [(23, [0, 1, 2, 3])] [2, 0, 3, 1]) 1 1,
    -- 608: x50 = np.zeros((nocc[1], nocc[1]), dtype=types[float])
    .zeros 242 [4, 4],
    -- 609: x50 += einsum("ijab,ikba->jk", t2.bbbb, x49)
    .add 242 (.ein [(22, [0, 1, 2, 3]), (241, [0, 4, 3, 2])] [1, 4]) 1 1,
    -- 610: x54 += einsum("ij->ji", x50) * -1
    .add 159 (.ein [(242, [0, 1])] [1, 0]) (-1) 1,
    -- 611: del x50
    .del 242,
    -- 612: x198 = np.zeros((nvir[1], nvir[1]), dtype=types[float])
    .zeros 243 [5, 5],
    -- 613: x198 += einsum("ijab,ijbc->ac", t2.bbbb, x49)
    .add 243 (.ein [(22, [0, 1, 2, 3]), (241, [0, 1, 3, 4])] [2, 4]) 1 1,
    -- 614: x200 = np.zeros((nvir[1], nvir[1]), dtype=types[float])
    .zeros 244 [5, 5],
    -- 615: x200 += einsum("ab->ab", x198) * -1
    .add 244 (.ein [(243, [0, 1])] [0, 1]) (-1) 1,
    -- 616: del x198
    .del 243,
    -- 617: x202 = np.zeros((nocc[1], nocc[1]), dtype=types[float])
    .zeros 245 [4, 4],
    -- 618: x202 += einsum("ijab,ikab->jk", t2.bbbb, x49)
    .add 245 (.ein [(22, [0, 1, 2, 3]), (241, [0, 4, 2, 3])] [1, 4]) 1 1,
    -- 619: x204 = np.zeros((nocc[1], nocc[1]), dtype=types[float])
    .zeros 246 [4, 4],
    -- 620: x204 += einsum("ij->ji", x202) * -1
    .add 246 (.ein [(245, [0, 1])] [1, 0]) (-1) 1,
    -- 621: del x202
    .del 245,
    -- 622: x235 = np.zeros((nocc[1], nocc[1], nvir[1], nvir[1]), dtype=types[float])
    .zeros 247 [4, 4, 5, 5],
    -- 623: x235 += einsum("ijab,ikca->jkbc", x41, x49)
    .add 247 (.ein [(220, [0, 1, 2, 3]), (241, [0, 4, 5, 2])] [1, 4, 3, 5]) 1 1,
    -- 624: del x49
    .del 241,
    -- 625: x236 = np.zeros((nocc[1], nocc[1], nvir[1], nvir[1]), dtype=types[float])
    .zeros 248 [4, 4, 5, 5],
    -- 626: x236 += einsum("ijab->jiab", x235)
    .add 248 (.ein [(247, [0, 1, 2, 3])] [1, 0, 2, 3]) 1 1,
    -- 627: del x235
    .del 247,
    -- 628: x51 = np.zeros((nocc[1], nocc[1], nocc[1], nvir[1]), dtype=types[float])
    .zeros 249 [4, 4, 4, 5],
    -- 629: x51 += einsum("ijka->ikja", v.bbbb.ooov)
    .add 249 (.ein [(33, [0, 1, 2, 3])] [0, 2, 1, 3]) 1 1,
    -- 630: x51 += einsum("ijka->kija", v.bbbb.ooov) * -1
    .add 249 (.ein [(33, [0, 1, 2, 3])] [2, 0, 1, 3]) (-1) 1,
    -- 631: x52 = np.zeros((nocc[1], nocc[1]), dtype=types[float])
    .zeros 250 [4, 4],
    -- 632: x52 += einsum("ia,ijka->jk", t1.bb, x51)
    .add 250 (.ein [(18, [0, 1]), (249, [0, 2, 3, 1])] [2, 3]) 1 1,
    -- 633: x54 += einsum("ij->ij", x52) * -1
    .add 159 (.ein [(250, [0, 1])] [0, 1]) (-1) 1,
    -- 634: del x52
    .del 250,
    -- 635: x333 = np.zeros((nbos, nocc[1], nocc[1]), dtype=types[float])
    .zeros 251 [2, 4, 4],
    -- 636: x333 += einsum("wia,ijka->wjk", u11.bb, x51) * -1
    .add 251 (.ein [(24, [0, 1, 2]), (249, [1, 3, 4, 2])] [0, 3, 4]) (-1) 1,
    -- 637: del x51
    .del 249,
    -- 638: x54 += einsum("ij->ij", f.bb.oo)
    .add 159 (.ein [(38, [0, 1])] [0, 1]) 1 1,
    -- 639: x289 = np.zeros((nocc[0], nocc[1], nvir[0], nvir[1]), dtype=types[float])
    .zeros 252 [0, 4, 1, 5],
    -- 640: x289 += einsum("ij,kiab->kjab", x54, t2.abab)
    .add 252 (.ein [(159, [0, 1]), (14, [2, 0, 3, 4])] [2, 1, 3, 4]) 1 1,
    -- 641: t2new_baba += einsum("ijab->jiba", x289) * -1
    .add 184 (.ein [(252, [0, 1, 2, 3])] [1, 0, 3, 2]) (-1) 1,
    -- 642: t2new_abab += einsum("ijab->ijab", x289) * -1
    .add 185 (.ein [(252, [0, 1, 2, 3])] [0, 1, 2, 3]) (-1) 1,
    -- 643: del x289
    .del 252,
    -- 644: t1new_bb += einsum("ia,ij->ja", t1.bb, x54) * -1
    .add 127 (.ein [(18, [0, 1]), (159, [0, 2])] [2, 1]) (-1) 1,
    -- 645: u11new_bb += einsum("ij,wia->wja", x54, u11.bb) * -1
    .add 199 (.ein [(159, [0, 1]), (24, [2, 0, 3])] [2, 1, 3]) (-1) 1,
    -- 646: u12new_bb = np.zeros((nbos, nbos, nocc[1], nvir[1]), dtype=types[float])
    .zeros 253 [2, 2, 4, 5],
    -- 647: u12new_bb += einsum("ij,wxia->xwja", x54, u12.bb) * -1
    .add 253 (.ein [(159, [0, 1]), (16, [2, 3, 0, 4])] [3, 2, 1, 4]) (-1) 1,
    -- 648: del x54
    .del 159,
    -- 649: x55 = np.zeros((nvir[1], nvir[1]), dtype=types[float])
    .zeros 254 [5, 5],
    -- 650: x55 += einsum("w,wab->ab", s1, g.bb.bvv)
    .add 254 (.ein [(17, [0]), (7, [0, 1, 2])] [1, 2]) 1 1,
    -- 651: x58 += einsum("ab->ab", x55)
    .add 211 (.ein [(254, [0, 1])] [0, 1]) 1 1,
    -- 652: x169 = np.zeros((nvir[1], nvir[1]), dtype=types[float])
    .zeros 255 [5, 5],
    -- 653: x169 += einsum("ab->ab", x55)
    .add 255 (.ein [(254, [0, 1])] [0, 1]) 1 1,
    -- 654: x272 += einsum("ab->ab", x55)
    .add 148 (.ein [(254, [0, 1])] [0, 1]) 1 1,
    -- 655: x328 += einsum("ab->ab", x55)
    .add 144 (.ein [(254, [0, 1])] [0, 1]) 1 1,
    -- 656: del x55
    .del 254,
    -- 657: x56 = np.zeros((nvir[1], nvir[1]), dtype=types[float])
    .zeros 256 [5, 5],
    -- 658: x56 += einsum("ia,iabc->bc", t1.aa, v.aabb.ovvv)
    .add 256 (.ein [(8, [0, 1]), (39, [0, 1, 2, 3])] [2, 3]) 1 1,
    -- 659: x58 += einsum("ab->ab", x56)
    .add 211 (.ein [(256, [0, 1])] [0, 1]) 1 1,
    -- 660: x172 = np.zeros((nvir[1], nvir[1]), dtype=types[float])
    .zeros 257 [5, 5],
    -- 661: x172 -= einsum("ab->ba", x56)
    .add 257 (.ein [(256, [0, 1])] [1, 0]) (-1) 1,
    -- 662: x272 += einsum("ab->ab", x56)
    .add 148 (.ein [(256, [0, 1])] [0, 1]) 1 1,
    -- 663: x328 += einsum("ab->ab", x56)
    .add 144 (.ein [(256, [0, 1])] [0, 1]) 1 1,
    -- 664: del x56
    .del 256,
    -- 665: x58 += einsum("ab->ab", f.bb.vv)
    .add 211 (.ein [(40, [0, 1])] [0, 1]) 1 1,
    -- 666: t1new_bb += einsum("ia,ba->ib", t1.bb, x58)
    .add 127 (.ein [(18, [0, 1]), (211, [2, 1])] [0, 2]) 1 1,
    -- 667: del x58
    .del 211,
    -- 668: x59 = np.zeros((nocc[0], nocc[0], nvir[0], nvir[0]), dtype=types[float])
    .zeros 258 [0, 0, 1, 1],
    -- 669: x59 += einsum("ia,bjca->ijbc", t1.aa, v.aaaa.vovv)
    .add 258 (.ein [(8, [0, 1]), (41, [2, 3, 4, 1])] [0, 3, 2, 4]) 1 1,
    -- 670: x94 -= einsum("ijab->ijab", x59)
    .add 176 (.ein [(258, [0, 1, 2, 3])] [0, 1, 2, 3]) (-1) 1,
    -- 671: del x59
    .del 258,
    -- 672: x60 = np.zeros((nocc[0], nocc[0], nvir[0], nvir[0]), dtype=types[float])
    .zeros 259 [0, 0, 1, 1],
    -- 673: x60 += einsum("ijab,jbck->ikac", t2.abab, v.bbaa.ovvo)
    .add 259 (.ein [(14, [0, 1, 2, 3]), (42, [1, 3, 4, 5])] [0, 5, 2, 4]) 1 1,
    -- 674: x94 += einsum("ijab->ijab", x60)
    .add 176 (.ein [(259, [0, 1, 2, 3])] [0, 1, 2, 3]) 1 1,
    -- 675: del x60
    .del 259,
    -- 676: x61 = np.zeros((nocc[0], nocc[1], nvir[0], nvir[1]), dtype=types[float])
    .zeros 260 [0, 4, 1, 5],
    -- 677: x61 += einsum("ia,jbca->ijcb", t1.aa, v.bbaa.ovvv)
    .add 260 (.ein [(8, [0, 1]), (29, [2, 3, 4, 1])] [0, 2, 4, 3]) 1 1,
    -- 678: x62 = np.zeros((nocc[0], nocc[0], nvir[0], nvir[0]), dtype=types[float])
    .zeros 261 [0, 0, 1, 1],
    -- 679: x62 += einsum("ijab,kjcb->kiac", t2.abab, x61)
    .add 261 (.ein [(14, [0, 1, 2, 3]), (260, [4, 1, 5, 3])] [4, 0, 2, 5]) 1 1,
    -- 680: x94 -= einsum("ijab->ijab", x62)
    .add 176 (.ein [(261, [0, 1, 2, 3])] [0, 1, 2, 3]) (-1) 1,
    -- 681: del x62
    .del 261,
    -- 682: x238 = np.zeros((nocc[0], nocc[1], nvir[0], nvir[1]), dtype=types[float])
    .zeros 262 [0, 4, 1, 5],
    -- 683: x238 += einsum("ijab->ijab", x61)
    .add 262 (.ein [(260, [0, 1, 2, 3])] [0, 1, 2, 3]) 1 1,
    -- 684: del x61
    .del 260,
    -- 685: x63 = np.zeros((nocc[0], nocc[0], nvir[0], nvir[0]), dtype=types[float])
    .zeros 263 [0, 0, 1, 1],
    -- 686: x63 -= einsum("ijab->jiab", t2.aaaa)
    .add 263 (.ein [(10, [0, 1, 2, 3])] [1, 0, 2, 3]) (-1) 1,
    -- 687: x63 += einsum("ijab->jiba", t2.aaaa)
    .add 263 (.ein [(10, [0, 1, 2, 3])] [1, 0, 3, 2]) 1 1,
    -- 688: x64 = np.zeros((nocc[0], nocc[0], nvir[0], nvir[0]), dtype=types[float])
    .zeros 264 [0, 0, 1, 1],
    -- 689: x64 += einsum("ijab,ikcb->kjca", x16, x63)
    .add 264 (.ein [(162, [0, 1, 2, 3]), (263, [0, 4, 5, 3])] [4, 1, 5, 2]) 1 1,
    -- 690: del x16
    .del 162,
    -- 691: x94 -= einsum("ijab->ijab", x64)
    .add 176 (.ein [(264, [0, 1, 2, 3])] [0, 1, 2, 3]) (-1) 1,
    -- 692: del x64
    .del 264,
    -- 693: x65 = np.zeros((nocc[0], nocc[0], nvir[0], nvir[0]), dtype=types[float])
    .zeros 265 [0, 0, 1, 1],
    -- 694: x65 += einsum("iajb->jiab", v.aaaa.ovov)
    .add 265 (.ein [(9, [0, 1, 2, 3])] [2, 0, 1, 3]) 1 1,
    -- 695: x65 -= einsum("iajb->jiba", v.aaaa.ovov)
    .add 265 (.ein [(9, [0, 1, 2, 3])] [2, 0, 3, 1]) (-1) 1,
    -- 696: x66 = np.zeros((nocc[0], nocc[0], nvir[0], nvir[0]), dtype=types[float])
    .zeros 266 [0, 0, 1, 1],
    -- 697: x66 += einsum("ijab,ikbc->kjca", t2.aaaa, x65)
    .add 266 (.ein [(10, [0, 1, 2, 3]), (265, [0, 4, 3, 5])] [4, 1, 5, 2]) 1 1,
    -- 698: x67 = np.zeros((nocc[0], nocc[0], nvir[0], nvir[0]), dtype=types[float])
    .zeros 267 [0, 0, 1, 1],
    -- 699: x67 -= einsum("ijab,ikac->kjcb", t2.aaaa, x66)
    .add 267 (.ein [(10, [0, 1, 2, 3]), (266, [0, 4, 2, 5])] [4, 1, 5, 3]) (-1) 1,
    -- 700: x94 -= einsum("ijab->jiba", x67)
    .add 176 (.ein [(267, [0, 1, 2, 3])] [1, 0, 3, 2]) (-1) 1,
    -- 701: del x67
    .del 267,
    -- 702: x137 = np.zeros((nocc[0], nocc[0], nvir[0], nvir[0]), dtype=types[float])
    .zeros 268 [0, 0, 1, 1],
    -- 703: x137 -= einsum("ijab,ikbc->kjca", t2.aaaa, x66)
    .add 268 (.ein [(10, [0, 1, 2, 3]), (266, [0, 4, 3, 5])] [4, 1, 5, 2]) (-1) 1,
    -- 704: del x66
    .del 266,
    -- 705: x141 += einsum("ijab->jiba", x137)
    .add 81 (.ein [(268, [0, 1, 2, 3])] [1, 0, 3, 2]) 1 1,
    -- 706: del x137
    .del 268,
    -- 707: x72 = np.zeros((nocc[0], nvir[0]), dtype=types[float])
    .zeros 269 [0, 1],
    -- 708: x72 += einsum("ia,ijab->jb", t1.aa, x65)
    .add 269 (.ein [(8, [0, 1]), (265, [0, 2, 1, 3])] [2, 3]) 1 1,
    -- 709: x73 -= einsum("ia->ia", x72)
    .add 97 (.ein [(269, [0, 1])] [0, 1]) (-1) 1,
    -- 710: x297 -= einsum("ia->ia", x72)
    .add 98 (.ein [(269, [0, 1])] [0, 1]) (-1) 1,
    -- 711: del x72
    .del 269,
    -- 712: x135 = np.zeros((nocc[0], nocc[0], nvir[0], nvir[0]), dtype=types[float])
    .zeros 270 [0, 0, 1, 1],
    -- 713: x135 += einsum("ijab,ikac->kjcb", t2.aaaa, x65)
    .add 270 (.ein [(10, [0, 1, 2, 3]), (265, [0, 4, 2, 5])] [4, 1, 5, 3]) 1 1,
    -- 714: x136 = np.zeros((nocc[0], nocc[0], nvir[0], nvir[0]), dtype=types[float])
    .zeros 271 [0, 0, 1, 1],
    -- 715: x136 -= einsum("ijab,ikac->kjcb", t2.aaaa, x135)
    .add 271 (.ein [(10, [0, 1, 2, 3]), (270, [0, 4, 2, 5])] [4, 1, 5, 3]) (-1) 1,
    -- 716: del x135
    .del 270,
    -- 717: x141 += einsum("ijab->ijab", x136)
    .add 81 (.ein [(271, [0, 1, 2, 3])] [0, 1, 2, 3]) 1 1,
    -- 718: del x136
    .del 271,
    -- 719: x177 = np.zeros((nocc[0], nocc[1], nvir[0], nvir[1]), dtype=types[float])
    .zeros 272 [0, 4, 1, 5],
    -- 720: x177 += einsum("ijab,ikac->kjcb", t2.abab, x65)
    .add 272 (.ein [(14, [0, 1, 2, 3]), (265, [0, 4, 2, 5])] [4, 1, 5, 3]) 1 1,
    -- 721: x178 = np.zeros((nocc[1], nocc[1], nvir[1], nvir[1]), dtype=types[float])
    .zeros 273 [4, 4, 5, 5],
    -- 722: x178 -= einsum("ijab,ikac->kjcb", t2.abab, x177)
    .add 273 (.ein [(14, [0, 1, 2, 3]), (272, [0, 4, 2, 5])] [4, 1, 5, 3]) (-1) 1,
    -- 723: del x177
    .del 272,
    -- 724: t2new_bbbb = np.zeros((nocc[1], nocc[1], nvir[1], nvir[1]), dtype=types[float])
    .zeros 274 [4, 4, 5, 5],
    -- 725: t2new_bbbb -= einsum("ijab->ijba", x178)
    .add 274 (.ein [(273, [0, 1, 2, 3])] [0, 1, 3, 2]) (-1) 1,
    -- 726: t2new_bbbb += einsum("ijab->jiba", x178)
    .add 274 (.ein [(273, [0, 1, 2, 3])] [1, 0, 3, 2]) 1 1,
    -- 727: del x178
    .del 273,
    -- 728: x308 = np.zeros((nbos, nocc[0], nvir[0]), dtype=types[float])
    .zeros 275 [2, 0, 1],
    -- 729: x308 -= einsum("wia,ijab->wjb", u11.aa, x65)
    .add 275 (.ein [(19, [0, 1, 2]), (265, [1, 3, 2, 4])] [0, 3, 4]) (-1) 1,
    -- 730: del x65
    .del 265,
    -- 731: s2new = np.zeros((nbos, nbos), dtype=types[float])
    .zeros 276 [2, 2],
    -- 732: s2new += einsum("wia,xia->wx", u11.aa, x308)
    .add 276 (.ein [(19, [0, 1, 2]), (275, [3, 1, 2])] [0, 3]) 1 1,
    -- 733: del x308
    .del 275,
    -- 734: x68 = np.zeros((nocc[0], nocc[0], nocc[0], nvir[0]), dtype=types[float])
    .zeros 277 [0, 0, 0, 1],
    -- 735: x68 += einsum("ijab,kljb->ikla", t2.abab, v.aabb.ooov)
    .add 277 (.ein [(14, [0, 1, 2, 3]), (15, [4, 5, 1, 3])] [0, 4, 5, 2]) 1 1,
    -- 736: x76 += einsum("ijka->jika", x68)
    .add 164 (.ein [(277, [0, 1, 2, 3])] [1, 0, 2, 3]) 1 1,
    -- 737: del x68
    .del 277,
    -- 738: x70 = np.zeros((nocc[0], nocc[0], nvir[0], nvir[0]), dtype=types[float])
    .zeros 278 [0, 0, 1, 1],
    -- 739: x70 += einsum("ijab->jiab", t2.aaaa)
    .add 278 (.ein [(10, [0, 1, 2, 3])] [1, 0, 2, 3]) 1 1,
    -- 740: x70 -= einsum("ijab->jiba", t2.aaaa)
    .add 278 (.ein [(10, [0, 1, 2, 3])] [1, 0, 3, 2]) (-1) 1,
    -- 741: x71 = np.zeros((nocc[0], nocc[0], nocc[0], nvir[0]), dtype=types[float])
    .zeros 279 [0, 0, 0, 1],
    -- 742: x71 += einsum("ijka,jlab->iklb", x69, x70)
    .add 279 (.ein [(75, [0, 1, 2, 3]), (278, [1, 4, 3, 5])] [0, 2, 4, 5]) 1 1,
    -- 743: del x69
    .del 75,
    -- 744: x76 += einsum("ijka->jika", x71)
    .add 164 (.ein [(279, [0, 1, 2, 3])] [1, 0, 2, 3]) 1 1,
    -- 745: del x71
    .del 279,
    -- 746: x83 = np.zeros((nbos, nocc[0], nvir[0]), dtype=types[float])
    .zeros 280 [2, 0, 1],
    -- 747: x83 += einsum("wia,ijab->wjb", g.aa.bov, x70)
    .add 280 (.ein [(2, [0, 1, 2]), (278, [1, 3, 2, 4])] [0, 3, 4]) 1 1,
    -- 748: del x70
    .del 278,
    -- 749: x85 -= einsum("wia->wia", x83)
    .add 169 (.ein [(280, [0, 1, 2])] [0, 1, 2]) (-1) 1,
    -- 750: del x83
    .del 280,
    -- 751: x73 += einsum("ia->ia", f.aa.ov)
    .add 97 (.ein [(21, [0, 1])] [0, 1]) 1 1,
    -- 752: x74 = np.zeros((nocc[0], nocc[0], nocc[0], nvir[0]), dtype=types[float])
    .zeros 281 [0, 0, 0, 1],
    -- 753: x74 += einsum("ia,jkab->ijkb", x73, t2.aaaa)
    .add 281 (.ein [(97, [0, 1]), (10, [2, 3, 1, 4])] [0, 2, 3, 4]) 1 1,
    -- 754: x76 += einsum("ijka->ikja", x74)
    .add 164 (.ein [(281, [0, 1, 2, 3])] [0, 2, 1, 3]) 1 1,
    -- 755: del x74
    .del 281,
    -- 756: x78 = np.zeros((nocc[0], nocc[0]), dtype=types[float])
    .zeros 282 [0, 0],
    -- 757: x78 += einsum("ia,ja->ji", t1.aa, x73)
    .add 282 (.ein [(8, [0, 1]), (97, [2, 1])] [2, 0]) 1 1,
    -- 758: del x73
    .del 97,
    -- 759: x79 += einsum("ij->ji", x78)
    .add 171 (.ein [(282, [0, 1])] [1, 0]) 1 1,
    -- 760: del x78
    .del 282,
    -- 761: x76 -= einsum("ijak->ijka", v.aaaa.oovo)
    .add 164 (.ein [(43, [0, 1, 2, 3])] [0, 1, 3, 2]) (-1) 1,
    -- 762: x77 = np.zeros((nocc[0], nocc[0], nvir[0], nvir[0]), dtype=types[float])
    .zeros 283 [0, 0, 1, 1],
    -- 763: x77 += einsum("ia,ijkb->jkba", t1.aa, x76)
    .add 283 (.ein [(8, [0, 1]), (164, [0, 2, 3, 4])] [2, 3, 4, 1]) 1 1,
    -- 764: del x76
    .del 164,
    -- 765: x94 += einsum("ijab->ijba", x77)
    .add 176 (.ein [(283, [0, 1, 2, 3])] [0, 1, 3, 2]) 1 1,
    -- 766: del x77
    .del 283,
    -- 767: x79 += einsum("ij->ji", f.aa.oo)
    .add 171 (.ein [(28, [0, 1])] [1, 0]) 1 1,
    -- 768: x80 = np.zeros((nocc[0], nocc[0], nvir[0], nvir[0]), dtype=types[float])
    .zeros 284 [0, 0, 1, 1],
    -- 769: x80 += einsum("ij,jkab->ikab", x79, t2.aaaa)
    .add 284 (.ein [(171, [0, 1]), (10, [1, 2, 3, 4])] [0, 2, 3, 4]) 1 1,
    -- 770: del x79
    .del 171,
    -- 771: x94 += einsum("ijab->ijba", x80)
    .add 176 (.ein [(284, [0, 1, 2, 3])] [0, 1, 3, 2]) 1 1,
    -- 772: del x80
    .del 284,
    -- 773: x81 = np.zeros((nbos, nocc[0], nvir[0]), dtype=types[float])
    .zeros 285 [2, 0, 1],
    -- 774: x81 += einsum("ia,wba->wib", t1.aa, g.aa.bvv)
    .add 285 (.ein [(8, [0, 1]), (3, [2, 3, 1])] [2, 0, 3]) 1 1,
    -- 775: x85 += einsum("wia->wia", x81)
    .add 169 (.ein [(285, [0, 1, 2])] [0, 1, 2]) 1 1,
    -- 776: del x81
    .del 285,
    -- 777: x82 = np.zeros((nbos, nocc[0], nvir[0]), dtype=types[float])
    .zeros 286 [2, 0, 1],
    -- 778: x82 += einsum("wia,jiba->wjb", g.bb.bov, t2.abab)
    .add 286 (.ein [(6, [0, 1, 2]), (14, [3, 1, 4, 2])] [0, 3, 4]) 1 1,
    -- 779: x85 += einsum("wia->wia", x82)
    .add 169 (.ein [(286, [0, 1, 2])] [0, 1, 2]) 1 1,
    -- 780: del x82
    .del 286,
    -- 781: x85 += einsum("wai->wia", g.aa.bvo)
    .add 169 (.ein [(1, [0, 1, 2])] [0, 2, 1]) 1 1,
    -- 782: x86 = np.zeros((nocc[0], nocc[0], nvir[0], nvir[0]), dtype=types[float])
    .zeros 287 [0, 0, 1, 1],
    -- 783: x86 += einsum("wia,wjb->jiba", u11.aa, x85)
    .add 287 (.ein [(19, [0, 1, 2]), (169, [0, 3, 4])] [3, 1, 4, 2]) 1 1,
    -- 784: x94 += einsum("ijab->ijab", x86)
    .add 176 (.ein [(287, [0, 1, 2, 3])] [0, 1, 2, 3]) 1 1,
    -- 785: del x86
    .del 287,
    -- 786: x292 = np.zeros((nocc[0], nocc[1], nvir[0], nvir[1]), dtype=types[float])
    .zeros 288 [0, 4, 1, 5],
    -- 787: x292 += einsum("wia,wjb->jiba", u11.bb, x85)
    .add 288 (.ein [(24, [0, 1, 2]), (169, [0, 3, 4])] [3, 1, 4, 2]) 1 1,
    -- 788: del x85
    .del 169,
    -- 789: t2new_baba += einsum("ijab->jiba", x292)
    .add 184 (.ein [(288, [0, 1, 2, 3])] [1, 0, 3, 2]) 1 1,
    -- 790: t2new_abab += einsum("ijab->ijab", x292)
    .add 185 (.ein [(288, [0, 1, 2, 3])] [0, 1, 2, 3]) 1 1,
    -- 791: del x292
    .del 288,
    -- 792: x87 += einsum("ab->ab", f.aa.vv)
    .add 189 (.ein [(30, [0, 1])] [0, 1]) 1 1,
    -- 793: x88 = np.zeros((nocc[0], nocc[0], nvir[0], nvir[0]), dtype=types[float])
    .zeros 289 [0, 0, 1, 1],
    -- 794: x88 += einsum("ab,ijbc->ijac", x87, t2.aaaa)
    .add 289 (.ein [(189, [0, 1]), (10, [2, 3, 1, 4])] [2, 3, 0, 4]) 1 1,
    -- 795: del x87
    .del 189,
    -- 796: x94 -= einsum("ijab->jiab", x88)
    .add 176 (.ein [(289, [0, 1, 2, 3])] [1, 0, 2, 3]) (-1) 1,
    -- 797: del x88
    .del 289,
    -- 798: x89 = np.zeros((nvir[0], nvir[0]), dtype=types[float])
    .zeros 290 [1, 1],
    -- 799: x89 += einsum("wia,wib->ab", g.aa.bov, u11.aa)
    .add 290 (.ein [(2, [0, 1, 2]), (19, [0, 1, 3])] [2, 3]) 1 1,
    -- 800: x90 += einsum("ab->ab", x89)
    .add 192 (.ein [(290, [0, 1])] [0, 1]) 1 1,
    -- 801: x91 = np.zeros((nocc[0], nocc[0], nvir[0], nvir[0]), dtype=types[float])
    .zeros 291 [0, 0, 1, 1],
    -- 802: x91 += einsum("ab,ijac->ijbc", x90, t2.aaaa)
    .add 291 (.ein [(192, [0, 1]), (10, [2, 3, 0, 4])] [2, 3, 1, 4]) 1 1,
    -- 803: del x90
    .del 192,
    -- 804: x94 -= einsum("ijab->jiba", x91)
    .add 176 (.ein [(291, [0, 1, 2, 3])] [1, 0, 3, 2]) (-1) 1,
    -- 805: del x91
    .del 291,
    -- 806: t2new_aaaa = np.zeros((nocc[0], nocc[0], nvir[0], nvir[0]), dtype=types[float])
    .zeros 292 [0, 0, 1, 1],
    -- 807: t2new_aaaa += einsum("ijab->ijab", x94)
    .add 292 (.ein [(176, [0, 1, 2, 3])] [0, 1, 2, 3]) 1 1,
    -- 808: t2new_aaaa -= einsum("ijab->ijba", x94)
    .add 292 (.ein [(176, [0, 1, 2, 3])] [0, 1, 3, 2]) (-1) 1,
    -- 809: t2new_aaaa -= einsum("ijab->jiab", x94)
    .add 292 (.ein [(176, [0, 1, 2, 3])] [1, 0, 2, 3]) (-1) 1,
    -- 810: t2new_aaaa += einsum("ijab->jiba", x94)
    .add 292 (.ein [(176, [0, 1, 2, 3])] [1, 0, 3, 2]) 1 1,
    -- 811: del x94
    .del 176,
    -- 812: x276 += einsum("ab->ba", x89) * -1
    .add 190 (.ein [(290, [0, 1])] [1, 0]) (-1) 1,
    -- 813: x317 += einsum("ab->ba", x89) * -1
    .add 109 (.ein [(290, [0, 1])] [1, 0]) (-1) 1,
    -- 814: del x89
    .del 290,
    -- 815: x95 = np.zeros((nocc[0], nocc[0], nocc[0], nocc[0]), dtype=types[float])
    .zeros 293 [0, 0, 0, 0],
    -- 816: x95 += einsum("ia,jkla->ijlk", t1.aa, v.aaaa.ooov)
    .add 293 (.ein [(8, [0, 1]), (11, [2, 3, 4, 1])] [0, 2, 4, 3]) 1 1,
    -- 817: x96 = np.zeros((nocc[0], nocc[0], nvir[0], nvir[0]), dtype=types[float])
    .zeros 294 [0, 0, 1, 1],
    -- 818: x96 += einsum("ijab,kjil->klba", t2.aaaa, x95)
    .add 294 (.ein [(10, [0, 1, 2, 3]), (293, [4, 1, 0, 5])] [4, 5, 3, 2]) 1 1,
    -- 819: x119 += einsum("ijab->ijab", x96)
    .add 104 (.ein [(294, [0, 1, 2, 3])] [0, 1, 2, 3]) 1 1,
    -- 820: del x96
    .del 294,
    -- 821: x108 = np.zeros((nocc[0], nocc[0], nocc[0], nvir[0]), dtype=types[float])
    .zeros 295 [0, 0, 0, 1],
    -- 822: x108 += einsum("ia,jkil->jkla", t1.aa, x95)
    .add 295 (.ein [(8, [0, 1]), (293, [2, 3, 0, 4])] [2, 3, 4, 1]) 1 1,
    -- 823: del x95
    .del 293,
    -- 824: x115 += einsum("ijka->ijka", x108)
    .add 91 (.ein [(295, [0, 1, 2, 3])] [0, 1, 2, 3]) 1 1,
    -- 825: del x108
    .del 295,
    -- 826: x101 = np.zeros((nocc[0], nocc[0], nvir[0], nvir[0]), dtype=types[float])
    .zeros 296 [0, 0, 1, 1],
    -- 827: x101 += einsum("ijab,kcjb->ikac", t2.abab, v.aabb.ovov)
    .add 296 (.ein [(14, [0, 1, 2, 3]), (13, [4, 5, 1, 3])] [0, 4, 2, 5]) 1 1,
    -- 828: x102 = np.zeros((nocc[0], nocc[0], nvir[0], nvir[0]), dtype=types[float])
    .zeros 297 [0, 0, 1, 1],
    -- 829: x102 += einsum("ijab,kicb->kjca", x10, x101)
    .add 297 (.ein [(128, [0, 1, 2, 3]), (296, [4, 0, 5, 3])] [4, 1, 5, 2]) 1 1,
    -- 830: del x101
    .del 296,
    -- 831: x119 += einsum("ijab->jiba", x102) * -1
    .add 104 (.ein [(297, [0, 1, 2, 3])] [1, 0, 3, 2]) (-1) 1,
    -- 832: del x102
    .del 297,
    -- 833: x103 = np.zeros((nvir[0], nvir[0]), dtype=types[float])
    .zeros 298 [1, 1],
    -- 834: x103 += einsum("ijab,icjb->ac", t2.abab, v.aabb.ovov)
    .add 298 (.ein [(14, [0, 1, 2, 3]), (13, [0, 4, 1, 3])] [2, 4]) 1 1,
    -- 835: x106 += einsum("ab->ab", x103)
    .add 87 (.ein [(298, [0, 1])] [0, 1]) 1 1,
    -- 836: x107 = np.zeros((nocc[0], nocc[0], nvir[0], nvir[0]), dtype=types[float])
    .zeros 299 [0, 0, 1, 1],
    -- 837: x107 += einsum("ab,ijbc->ijac", x106, t2.aaaa)
    .add 299 (.ein [(87, [0, 1]), (10, [2, 3, 1, 4])] [2, 3, 0, 4]) 1 1,
    -- 838: del x106
    .del 87,
    -- 839: x119 += einsum("ijab->jiba", x107)
    .add 104 (.ein [(299, [0, 1, 2, 3])] [1, 0, 3, 2]) 1 1,
    -- 840: del x107
    .del 299,
    -- 841: x276 += einsum("ab->ab", x103) * -1
    .add 190 (.ein [(298, [0, 1])] [0, 1]) (-1) 1,
    -- 842: x317 += einsum("ab->ab", x103) * -1
    .add 109 (.ein [(298, [0, 1])] [0, 1]) (-1) 1,
    -- 843: del x103
    .del 298,
    -- 844: x109 = np.zeros((nocc[0], nocc[0], nocc[0], nvir[0]), dtype=types[float])
    .zeros 300 [0, 0, 0, 1],
    -- 845: x109 += einsum("ijab,kacb->ijkc", t2.aaaa, v.aaaa.ovvv)
    .add 300 (.ein [(10, [0, 1, 2, 3]), (12, [4, 2, 5, 3])] [0, 1, 4, 5]) 1 1,
    -- 846: x115 += einsum("ijka->ikja", x109)
    .add 91 (.ein [(300, [0, 1, 2, 3])] [0, 2, 1, 3]) 1 1,
    -- 847: del x109
    .del 300,
    -- 848: x110 = np.zeros((nocc[0], nocc[0], nvir[0], nvir[0]), dtype=types[float])
    .zeros 301 [0, 0, 1, 1],
    -- 849: x110 += einsum("ia,jbca->ijcb", t1.aa, v.aaaa.ovvv)
    .add 301 (.ein [(8, [0, 1]), (12, [2, 3, 4, 1])] [0, 2, 4, 3]) 1 1,
    -- 850: x111 = np.zeros((nocc[0], nocc[0], nocc[0], nvir[0]), dtype=types[float])
    .zeros 302 [0, 0, 0, 1],
    -- 851: x111 += einsum("ia,jkba->ijkb", t1.aa, x110)
    .add 302 (.ein [(8, [0, 1]), (301, [2, 3, 4, 1])] [0, 2, 3, 4]) 1 1,
    -- 852: del x110
    .del 301,
    -- 853: x115 += einsum("ijka->ikja", x111)
    .add 91 (.ein [(302, [0, 1, 2, 3])] [0, 2, 1, 3]) 1 1,
    -- 854: del x111
    .del 302,
    -- 855: x116 = np.zeros((nocc[0], nocc[0], nvir[0], nvir[0]), dtype=types[float])
    .zeros 303 [0, 0, 1, 1],
    -- 856: x116 += einsum("ia,jikb->jkba", t1.aa, x115)
    .add 303 (.ein [(8, [0, 1]), (91, [2, 0, 3, 4])] [2, 3, 4, 1]) 1 1,
    -- 857: del x115
    .del 91,
    -- 858: x119 += einsum("ijab->ijba", x116)
    .add 104 (.ein [(303, [0, 1, 2, 3])] [0, 1, 3, 2]) 1 1,
    -- 859: del x116
    .del 303,
    -- 860: t2new_aaaa += einsum("ijab->ijab", x119) * -1
    .add 292 (.ein [(104, [0, 1, 2, 3])] [0, 1, 2, 3]) (-1) 1,
    -- 861: t2new_aaaa += einsum("ijab->ijba", x119)
    .add 292 (.ein [(104, [0, 1, 2, 3])] [0, 1, 3, 2]) 1 1,
    -- 862: t2new_aaaa += einsum("ijab->jiab", x119)
    .add 292 (.ein [(104, [0, 1, 2, 3])] [1, 0, 2, 3]) 1 1,
    -- 863: t2new_aaaa += einsum("ijab->jiba", x119) * -1
    .add 292 (.ein [(104, [0, 1, 2, 3])] [1, 0, 3, 2]) (-1) 1,
    -- 864: del x119
    .del 104,
    -- 865: x120 = np.zeros((nocc[0], nocc[0], nvir[0], nvir[0]), dtype=types[float])
    .zeros 304 [0, 0, 1, 1],
    -- 866: x120 += einsum("ijab,ikjl->lkba", t2.aaaa, v.aaaa.oooo)
    .add 304 (.ein [(10, [0, 1, 2, 3]), (44, [0, 4, 1, 5])] [5, 4, 3, 2]) 1 1,
    -- 867: x122 = np.zeros((nocc[0], nocc[0], nvir[0], nvir[0]), dtype=types[float])
    .zeros 305 [0, 0, 1, 1],
    -- 868: x122 += einsum("ijab->jiba", x120)
    .add 305 (.ein [(304, [0, 1, 2, 3])] [1, 0, 3, 2]) 1 1,
    -- 869: del x120
    .del 304,
    -- 870: x121 = np.zeros((nocc[0], nocc[0], nvir[0], nvir[0]), dtype=types[float])
    .zeros 306 [0, 0, 1, 1],
    -- 871: x121 += einsum("ijab,cadb->ijcd", t2.aaaa, v.aaaa.vvvv)
    .add 306 (.ein [(10, [0, 1, 2, 3]), (45, [4, 2, 5, 3])] [0, 1, 4, 5]) 1 1,
    -- 872: x122 += einsum("ijab->jiba", x121)
    .add 305 (.ein [(306, [0, 1, 2, 3])] [1, 0, 3, 2]) 1 1,
    -- 873: del x121
    .del 306,
    -- 874: t2new_aaaa += einsum("ijab->ijba", x122) * -1
    .add 292 (.ein [(305, [0, 1, 2, 3])] [0, 1, 3, 2]) (-1) 1,
    -- 875: t2new_aaaa += einsum("ijab->ijab", x122)
    .add 292 (.ein [(305, [0, 1, 2, 3])] [0, 1, 2, 3]) 1 1,
    -- 876: del x122
    .del 305,
    -- 877: x123 = np.zeros((nocc[0], nvir[0], nvir[0], nvir[0]), dtype=types[float])
    .zeros 307 [0, 1, 1, 1],
    -- 878: x123 += einsum("ia,bacd->icbd", t1.aa, v.aaaa.vvvv)
    .add 307 (.ein [(8, [0, 1]), (45, [2, 1, 3, 4])] [0, 3, 2, 4]) 1 1,
    -- 879: x124 = np.zeros((nocc[0], nocc[0], nvir[0], nvir[0]), dtype=types[float])
    .zeros 308 [0, 0, 1, 1],
    -- 880: x124 += einsum("ia,jbca->ijbc", t1.aa, x123)
    .add 308 (.ein [(8, [0, 1]), (307, [2, 3, 4, 1])] [0, 2, 3, 4]) 1 1,
    -- 881: del x123
    .del 307,
    -- 882: x132 += einsum("ijab->ijab", x124)
    .add 78 (.ein [(308, [0, 1, 2, 3])] [0, 1, 2, 3]) 1 1,
    -- 883: del x124
    .del 308,
    -- 884: x125 = np.zeros((nocc[0], nocc[0], nocc[0], nocc[0]), dtype=types[float])
    .zeros 309 [0, 0, 0, 0],
    -- 885: x125 += einsum("ijab,kbla->ijlk", t2.aaaa, v.aaaa.ovov)
    .add 309 (.ein [(10, [0, 1, 2, 3]), (9, [4, 3, 5, 2])] [0, 1, 5, 4]) 1 1,
    -- 886: x126 = np.zeros((nocc[0], nocc[0], nvir[0], nvir[0]), dtype=types[float])
    .zeros 310 [0, 0, 1, 1],
    -- 887: x126 += einsum("ijab,klji->lkab", t2.aaaa, x125)
    .add 310 (.ein [(10, [0, 1, 2, 3]), (309, [4, 5, 1, 0])] [5, 4, 2, 3]) 1 1,
    -- 888: x132 += einsum("ijab->ijab", x126)
    .add 78 (.ein [(310, [0, 1, 2, 3])] [0, 1, 2, 3]) 1 1,
    -- 889: del x126
    .del 310,
    -- 890: x129 = np.zeros((nocc[0], nocc[0], nocc[0], nocc[0]), dtype=types[float])
    .zeros 311 [0, 0, 0, 0],
    -- 891: x129 += einsum("ijkl->lkji", x125)
    .add 311 (.ein [(309, [0, 1, 2, 3])] [3, 2, 1, 0]) 1 1,
    -- 892: del x125
    .del 309,
    -- 893: x129 += einsum("ijkl->kilj", v.aaaa.oooo)
    .add 311 (.ein [(44, [0, 1, 2, 3])] [2, 0, 3, 1]) 1 1,
    -- 894: x130 = np.zeros((nocc[0], nocc[0], nocc[0], nvir[0]), dtype=types[float])
    .zeros 312 [0, 0, 0, 1],
    -- 895: x130 += einsum("ia,ijkl->jkla", t1.aa, x129)
    .add 312 (.ein [(8, [0, 1]), (311, [0, 2, 3, 4])] [2, 3, 4, 1]) 1 1,
    -- 896: del x129
    .del 311,
    -- 897: x131 = np.zeros((nocc[0], nocc[0], nvir[0], nvir[0]), dtype=types[float])
    .zeros 313 [0, 0, 1, 1],
    -- 898: x131 += einsum("ia,ijkb->kjba", t1.aa, x130)
    .add 313 (.ein [(8, [0, 1]), (312, [0, 2, 3, 4])] [3, 2, 4, 1]) 1 1,
    -- 899: del x130
    .del 312,
    -- 900: x132 += einsum("ijab->ijba", x131)
    .add 78 (.ein [(313, [0, 1, 2, 3])] [0, 1, 3, 2]) 1 1,
    -- 901: del x131
    .del 313,
    -- 902: t2new_aaaa += einsum("ijab->ijab", x132)
    .add 292 (.ein [(78, [0, 1, 2, 3])] [0, 1, 2, 3]) 1 1,
    -- 903: t2new_aaaa += einsum("ijab->ijba", x132) * -1
    .add 292 (.ein [(78, [0, 1, 2, 3])] [0, 1, 3, 2]) (-1) 1,
    -- 904: del x132
    .del 78,
    -- 905: x138 = np.zeros((nocc[1], nocc[1], nvir[1], nvir[1]), dtype=types[float])
    .zeros 314 [4, 4, 5, 5],
    -- 906: x138 += einsum("iajb->jiab", v.bbbb.ovov)
    .add 314 (.ein [(23, [0, 1, 2, 3])] [2, 0, 1, 3]) 1 1,
    -- 907: x138 -= einsum("iajb->jiba", v.bbbb.ovov)
    .add 314 (.ein [(23, [0, 1, 2, 3])] [2, 0, 3, 1]) (-1) 1,
    -- 908: x139 = np.zeros((nocc[0], nocc[1], nvir[0], nvir[1]), dtype=types[float])
    .zeros 315 [0, 4, 1, 5],
    -- 909: x139 += einsum("ijab,jkbc->ikac", t2.abab, x138)
    .add 315 (.ein [(14, [0, 1, 2, 3]), (314, [1, 4, 3, 5])] [0, 4, 2, 5]) 1 1,
    -- 910: x140 = np.zeros((nocc[0], nocc[0], nvir[0], nvir[0]), dtype=types[float])
    .zeros 316 [0, 0, 1, 1],
    -- 911: x140 -= einsum("ijab,kjcb->kica", t2.abab, x139)
    .add 316 (.ein [(14, [0, 1, 2, 3]), (315, [4, 1, 5, 3])] [4, 0, 5, 2]) (-1) 1,
    -- 912: del x139
    .del 315,
    -- 913: x141 += einsum("ijab->ijab", x140)
    .add 81 (.ein [(316, [0, 1, 2, 3])] [0, 1, 2, 3]) 1 1,
    -- 914: del x140
    .del 316,
    -- 915: t2new_aaaa += einsum("ijab->ijab", x141)
    .add 292 (.ein [(81, [0, 1, 2, 3])] [0, 1, 2, 3]) 1 1,
    -- 916: t2new_aaaa -= einsum("ijab->ijba", x141)
    .add 292 (.ein [(81, [0, 1, 2, 3])] [0, 1, 3, 2]) (-1) 1,
    -- 917: del x141
    .del 81,
    -- 918: x148 = np.zeros((nocc[1], nocc[1], nvir[1], nvir[1]), dtype=types[float])
    .zeros 317 [4, 4, 5, 5],
    -- 919: x148 += einsum("ijab,ikbc->kjca", t2.bbbb, x138)
    .add 317 (.ein [(22, [0, 1, 2, 3]), (314, [0, 4, 3, 5])] [4, 1, 5, 2]) 1 1,
    -- 920: x149 = np.zeros((nocc[1], nocc[1], nvir[1], nvir[1]), dtype=types[float])
    .zeros 318 [4, 4, 5, 5],
    -- 921: x149 -= einsum("ijab,ikac->kjcb", t2.bbbb, x148)
    .add 318 (.ein [(22, [0, 1, 2, 3]), (317, [0, 4, 2, 5])] [4, 1, 5, 3]) (-1) 1,
    -- 922: x176 -= einsum("ijab->jiba", x149)
    .add 238 (.ein [(318, [0, 1, 2, 3])] [1, 0, 3, 2]) (-1) 1,
    -- 923: del x149
    .del 318,
    -- 924: x227 = np.zeros((nocc[1], nocc[1], nvir[1], nvir[1]), dtype=types[float])
    .zeros 319 [4, 4, 5, 5],
    -- 925: x227 -= einsum("ijab,ikbc->kjca", t2.bbbb, x148)
    .add 319 (.ein [(22, [0, 1, 2, 3]), (317, [0, 4, 3, 5])] [4, 1, 5, 2]) (-1) 1,
    -- 926: del x148
    .del 317,
    -- 927: x228 += einsum("ijab->ijab", x227)
    .add 207 (.ein [(319, [0, 1, 2, 3])] [0, 1, 2, 3]) 1 1,
    -- 928: del x227
    .del 319,
    -- 929: x153 = np.zeros((nocc[1], nvir[1]), dtype=types[float])
    .zeros 320 [4, 5],
    -- 930: x153 += einsum("ia,ijab->jb", t1.bb, x138)
    .add 320 (.ein [(18, [0, 1]), (314, [0, 2, 1, 3])] [2, 3]) 1 1,
    -- 931: x154 -= einsum("ia->ia", x153)
    .add 132 (.ein [(320, [0, 1])] [0, 1]) (-1) 1,
    -- 932: x296 -= einsum("ia->ia", x153)
    .add 133 (.ein [(320, [0, 1])] [0, 1]) (-1) 1,
    -- 933: del x153
    .del 320,
    -- 934: x225 = np.zeros((nocc[1], nocc[1], nvir[1], nvir[1]), dtype=types[float])
    .zeros 321 [4, 4, 5, 5],
    -- 935: x225 += einsum("ijab,ikac->kjcb", t2.bbbb, x138)
    .add 321 (.ein [(22, [0, 1, 2, 3]), (314, [0, 4, 2, 5])] [4, 1, 5, 3]) 1 1,
    -- 936: x226 = np.zeros((nocc[1], nocc[1], nvir[1], nvir[1]), dtype=types[float])
    .zeros 322 [4, 4, 5, 5],
    -- 937: x226 -= einsum("ijab,ikac->kjcb", t2.bbbb, x225)
    .add 322 (.ein [(22, [0, 1, 2, 3]), (321, [0, 4, 2, 5])] [4, 1, 5, 3]) (-1) 1,
    -- 938: del x225
    .del 321,
    -- 939: x228 += einsum("ijab->jiba", x226)
    .add 207 (.ein [(322, [0, 1, 2, 3])] [1, 0, 3, 2]) 1 1,
    -- 940: del x226
    .del 322,
    -- 941: t2new_bbbb += einsum("ijab->ijab", x228)
    .add 274 (.ein [(207, [0, 1, 2, 3])] [0, 1, 2, 3]) 1 1,
    -- 942: t2new_bbbb -= einsum("ijab->ijba", x228)
    .add 274 (.ein [(207, [0, 1, 2, 3])] [0, 1, 3, 2]) (-1) 1,
    -- 943: del x228
    .del 207,
    -- 944: x307 = np.zeros((nbos, nocc[1], nvir[1]), dtype=types[float])
    .zeros 323 [2, 4, 5],
    -- 945: x307 -= einsum("wia,ijab->wjb", u11.bb, x138)
    .add 323 (.ein [(24, [0, 1, 2]), (314, [1, 3, 2, 4])] [0, 3, 4]) (-1) 1,
    -- 946: del x138
    .del 314,
    -- 947: s2new += einsum("wia,xia->wx", u11.bb, x307)
    .add 276 (.ein [(24, [0, 1, 2]), (323, [3, 1, 2])] [0, 3]) 1 1,
    -- 948: del x307
    .del 323,
    -- 949: x142 = np.zeros((nocc[1], nocc[1], nvir[1], nvir[1]), dtype=types[float])
    .zeros 324 [4, 4, 5, 5],
    -- 950: x142 += einsum("ia,bjca->ijbc", t1.bb, v.bbbb.vovv)
    .add 324 (.ein [(18, [0, 1]), (46, [2, 3, 4, 1])] [0, 3, 2, 4]) 1 1,
    -- 951: x176 -= einsum("ijab->ijab", x142)
    .add 238 (.ein [(324, [0, 1, 2, 3])] [0, 1, 2, 3]) (-1) 1,
    -- 952: del x142
    .del 324,
    -- 953: x143 = np.zeros((nocc[1], nocc[1], nvir[1], nvir[1]), dtype=types[float])
    .zeros 325 [4, 4, 5, 5],
    -- 954: x143 += einsum("ijab,iack->jkbc", t2.abab, v.aabb.ovvo)
    .add 325 (.ein [(14, [0, 1, 2, 3]), (47, [0, 2, 4, 5])] [1, 5, 3, 4]) 1 1,
    -- 955: x176 += einsum("ijab->ijab", x143)
    .add 238 (.ein [(325, [0, 1, 2, 3])] [0, 1, 2, 3]) 1 1,
    -- 956: del x143
    .del 325,
    -- 957: x144 = np.zeros((nocc[0], nocc[1], nvir[0], nvir[1]), dtype=types[float])
    .zeros 326 [0, 4, 1, 5],
    -- 958: x144 += einsum("ia,jbca->jibc", t1.bb, v.aabb.ovvv)
    .add 326 (.ein [(18, [0, 1]), (39, [2, 3, 4, 1])] [2, 0, 3, 4]) 1 1,
    -- 959: x145 = np.zeros((nocc[1], nocc[1], nvir[1], nvir[1]), dtype=types[float])
    .zeros 327 [4, 4, 5, 5],
    -- 960: x145 += einsum("ijab,ikac->kjbc", t2.abab, x144)
    .add 327 (.ein [(14, [0, 1, 2, 3]), (326, [0, 4, 2, 5])] [4, 1, 3, 5]) 1 1,
    -- 961: x176 -= einsum("ijab->ijab", x145)
    .add 238 (.ein [(327, [0, 1, 2, 3])] [0, 1, 2, 3]) (-1) 1,
    -- 962: del x145
    .del 327,
    -- 963: x232 += einsum("ijab->ijab", x144)
    .add 118 (.ein [(326, [0, 1, 2, 3])] [0, 1, 2, 3]) 1 1,
    -- 964: x267 = np.zeros((nocc[0], nocc[1], nvir[0], nvir[1]), dtype=types[float])
    .zeros 328 [0, 4, 1, 5],
    -- 965: x267 += einsum("ijab->ijab", x144)
    .add 328 (.ein [(326, [0, 1, 2, 3])] [0, 1, 2, 3]) 1 1,
    -- 966: x412 = np.zeros((nocc[0], nocc[1], nvir[0], nvir[1]), dtype=types[float])
    .zeros 329 [0, 4, 1, 5],
    -- 967: x412 += einsum("ijab->ijab", x144)
    .add 329 (.ein [(326, [0, 1, 2, 3])] [0, 1, 2, 3]) 1 1,
    -- 968: del x144
    .del 326,
    -- 969: x146 = np.zeros((nocc[1], nocc[1], nvir[1], nvir[1]), dtype=types[float])
    .zeros 330 [4, 4, 5, 5],
    -- 970: x146 -= einsum("ijab->jiab", t2.bbbb)
    .add 330 (.ein [(22, [0, 1, 2, 3])] [1, 0, 2, 3]) (-1) 1,
    -- 971: x146 += einsum("ijab->jiba", t2.bbbb)
    .add 330 (.ein [(22, [0, 1, 2, 3])] [1, 0, 3, 2]) 1 1,
    -- 972: x147 = np.zeros((nocc[1], nocc[1], nvir[1], nvir[1]), dtype=types[float])
    .zeros 331 [4, 4, 5, 5],
    -- 973: x147 += einsum("ijab,ikcb->jkac", x146, x42)
    .add 331 (.ein [(330, [0, 1, 2, 3]), (225, [0, 4, 5, 3])] [1, 4, 2, 5]) 1 1,
    -- 974: del x42
    .del 225,
    -- 975: x176 -= einsum("ijab->ijab", x147)
    .add 238 (.ein [(331, [0, 1, 2, 3])] [0, 1, 2, 3]) (-1) 1,
    -- 976: del x147
    .del 331,
    -- 977: x152 = np.zeros((nocc[1], nocc[1], nocc[1], nvir[1]), dtype=types[float])
    .zeros 332 [4, 4, 4, 5],
    -- 978: x152 += einsum("ijab,klib->jkla", x146, x151)
    .add 332 (.ein [(330, [0, 1, 2, 3]), (202, [4, 5, 0, 3])] [1, 4, 5, 2]) 1 1,
    -- 979: del x146
    .del 330,
    -- 980: del x151
    .del 202,
    -- 981: x157 += einsum("ijka->kjia", x152)
    .add 227 (.ein [(332, [0, 1, 2, 3])] [2, 1, 0, 3]) 1 1,
    -- 982: del x152
    .del 332,
    -- 983: x150 = np.zeros((nocc[1], nocc[1], nocc[1], nvir[1]), dtype=types[float])
    .zeros 333 [4, 4, 4, 5],
    -- 984: x150 += einsum("ijab,iakl->jklb", t2.abab, v.aabb.ovoo)
    .add 333 (.ein [(14, [0, 1, 2, 3]), (35, [0, 2, 4, 5])] [1, 4, 5, 3]) 1 1,
    -- 985: x157 += einsum("ijka->jika", x150)
    .add 227 (.ein [(333, [0, 1, 2, 3])] [1, 0, 2, 3]) 1 1,
    -- 986: del x150
    .del 333,
    -- 987: x154 += einsum("ia->ia", f.bb.ov)
    .add 132 (.ein [(25, [0, 1])] [0, 1]) 1 1,
    -- 988: x155 = np.zeros((nocc[1], nocc[1], nocc[1], nvir[1]), dtype=types[float])
    .zeros 334 [4, 4, 4, 5],
    -- 989: x155 += einsum("ia,jkab->ijkb", x154, t2.bbbb)
    .add 334 (.ein [(132, [0, 1]), (22, [2, 3, 1, 4])] [0, 2, 3, 4]) 1 1,
    -- 990: x157 += einsum("ijka->ikja", x155)
    .add 227 (.ein [(334, [0, 1, 2, 3])] [0, 2, 1, 3]) 1 1,
    -- 991: del x155
    .del 334,
    -- 992: x159 = np.zeros((nocc[1], nocc[1]), dtype=types[float])
    .zeros 335 [4, 4],
    -- 993: x159 += einsum("ia,ja->ji", t1.bb, x154)
    .add 335 (.ein [(18, [0, 1]), (132, [2, 1])] [2, 0]) 1 1,
    -- 994: del x154
    .del 132,
    -- 995: x160 += einsum("ij->ji", x159)
    .add 233 (.ein [(335, [0, 1])] [1, 0]) 1 1,
    -- 996: del x159
    .del 335,
    -- 997: x157 -= einsum("ijak->ijka", v.bbbb.oovo)
    .add 227 (.ein [(48, [0, 1, 2, 3])] [0, 1, 3, 2]) (-1) 1,
    -- 998: x158 = np.zeros((nocc[1], nocc[1], nvir[1], nvir[1]), dtype=types[float])
    .zeros 336 [4, 4, 5, 5],
    -- 999: x158 += einsum("ia,ijkb->jkba", t1.bb, x157)
    .add 336 (.ein [(18, [0, 1]), (227, [0, 2, 3, 4])] [2, 3, 4, 1]) 1 1,
    -- 1000: del x157
    .del 227,
    -- 1001: x176 += einsum("ijab->ijba", x158)
    .add 238 (.ein [(336, [0, 1, 2, 3])] [0, 1, 3, 2]) 1 1,
    -- 1002: del x158
    .del 336,
    -- 1003: x160 += einsum("ij->ji", f.bb.oo)
    .add 233 (.ein [(38, [0, 1])] [1, 0]) 1 1,
    -- 1004: x161 = np.zeros((nocc[1], nocc[1], nvir[1], nvir[1]), dtype=types[float])
    .zeros 337 [4, 4, 5, 5],
    -- 1005: x161 += einsum("ij,jkab->ikab", x160, t2.bbbb)
    .add 337 (.ein [(233, [0, 1]), (22, [1, 2, 3, 4])] [0, 2, 3, 4]) 1 1,
    -- 1006: del x160
    .del 233,
    -- 1007: x176 += einsum("ijab->ijba", x161)
    .add 238 (.ein [(337, [0, 1, 2, 3])] [0, 1, 3, 2]) 1 1,
    -- 1008: del x161
    .del 337,
    -- 1009: x162 = np.zeros((nbos, nocc[1], nvir[1]), dtype=types[float])
    .zeros 338 [2, 4, 5],
    -- 1010: x162 += einsum("ia,wba->wib", t1.bb, g.bb.bvv)
    .add 338 (.ein [(18, [0, 1]), (7, [2, 3, 1])] [2, 0, 3]) 1 1,
    -- 1011: x167 += einsum("wia->wia", x162)
    .add 231 (.ein [(338, [0, 1, 2])] [0, 1, 2]) 1 1,
    -- 1012: del x162
    .del 338,
    -- 1013: x163 = np.zeros((nbos, nocc[1], nvir[1]), dtype=types[float])
    .zeros 339 [2, 4, 5],
    -- 1014: x163 += einsum("wia,ijab->wjb", g.aa.bov, t2.abab)
    .add 339 (.ein [(2, [0, 1, 2]), (14, [1, 3, 2, 4])] [0, 3, 4]) 1 1,
    -- 1015: x167 += einsum("wia->wia", x163)
    .add 231 (.ein [(339, [0, 1, 2])] [0, 1, 2]) 1 1,
    -- 1016: del x163
    .del 339,
    -- 1017: x164 = np.zeros((nocc[1], nocc[1], nvir[1], nvir[1]), dtype=types[float])
    .zeros 340 [4, 4, 5, 5],
    -- 1018: x164 += einsum("ijab->jiab", t2.bbbb)
    .add 340 (.ein [(22, [0, 1, 2, 3])] [1, 0, 2, 3]) 1 1,
    -- 1019: x164 -= einsum("ijab->jiba", t2.bbbb)
    .add 340 (.ein [(22, [0, 1, 2, 3])] [1, 0, 3, 2]) (-1) 1,
    -- 1020: x165 = np.zeros((nbos, nocc[1], nvir[1]), dtype=types[float])
    .zeros 341 [2, 4, 5],
    -- 1021: x165 += einsum("wia,ijab->wjb", g.bb.bov, x164)
    .add 341 (.ein [(6, [0, 1, 2]), (340, [1, 3, 2, 4])] [0, 3, 4]) 1 1,
    -- 1022: x167 -= einsum("wia->wia", x165)
    .add 231 (.ein [(341, [0, 1, 2])] [0, 1, 2]) (-1) 1,
    -- 1023: del x165
    .del 341,
    -- 1024: x167 += einsum("wai->wia", g.bb.bvo)
    .add 231 (.ein [(5, [0, 1, 2])] [0, 2, 1]) 1 1,
    -- 1025: x168 = np.zeros((nocc[1], nocc[1], nvir[1], nvir[1]), dtype=types[float])
    .zeros 342 [4, 4, 5, 5],
    -- 1026: x168 += einsum("wia,wjb->jiba", u11.bb, x167)
    .add 342 (.ein [(24, [0, 1, 2]), (231, [0, 3, 4])] [3, 1, 4, 2]) 1 1,
    -- 1027: x176 += einsum("ijab->ijab", x168)
    .add 238 (.ein [(342, [0, 1, 2, 3])] [0, 1, 2, 3]) 1 1,
    -- 1028: del x168
    .del 342,
    -- 1029: x291 = np.zeros((nocc[0], nocc[1], nvir[0], nvir[1]), dtype=types[float])
    .zeros 343 [0, 4, 1, 5],
    -- 1030: x291 += einsum("wia,wjb->ijab", u11.aa, x167)
    .add 343 (.ein [(19, [0, 1, 2]), (231, [0, 3, 4])] [1, 3, 2, 4]) 1 1,
    -- 1031: del x167
    .del 231,
    -- 1032: t2new_baba += einsum("ijab->jiba", x291)
    .add 184 (.ein [(343, [0, 1, 2, 3])] [1, 0, 3, 2]) 1 1,
    -- 1033: t2new_abab += einsum("ijab->ijab", x291)
    .add 185 (.ein [(343, [0, 1, 2, 3])] [0, 1, 2, 3]) 1 1,
    -- 1034: del x291
    .del 343,
    -- 1035: x169 += einsum("ab->ab", f.bb.vv)
    .add 255 (.ein [(40, [0, 1])] [0, 1]) 1 1,
    -- 1036: x170 = np.zeros((nocc[1], nocc[1], nvir[1], nvir[1]), dtype=types[float])
    .zeros 344 [4, 4, 5, 5],
    -- 1037: x170 += einsum("ab,ijbc->ijac", x169, t2.bbbb)
    .add 344 (.ein [(255, [0, 1]), (22, [2, 3, 1, 4])] [2, 3, 0, 4]) 1 1,
    -- 1038: del x169
    .del 255,
    -- 1039: x176 -= einsum("ijab->jiab", x170)
    .add 238 (.ein [(344, [0, 1, 2, 3])] [1, 0, 2, 3]) (-1) 1,
    -- 1040: del x170
    .del 344,
    -- 1041: x171 = np.zeros((nvir[1], nvir[1]), dtype=types[float])
    .zeros 345 [5, 5],
    -- 1042: x171 += einsum("wia,wib->ab", g.bb.bov, u11.bb)
    .add 345 (.ein [(6, [0, 1, 2]), (24, [0, 1, 3])] [2, 3]) 1 1,
    -- 1043: x172 += einsum("ab->ab", x171)
    .add 257 (.ein [(345, [0, 1])] [0, 1]) 1 1,
    -- 1044: x173 = np.zeros((nocc[1], nocc[1], nvir[1], nvir[1]), dtype=types[float])
    .zeros 346 [4, 4, 5, 5],
    -- 1045: x173 += einsum("ab,ijac->ijbc", x172, t2.bbbb)
    .add 346 (.ein [(257, [0, 1]), (22, [2, 3, 0, 4])] [2, 3, 1, 4]) 1 1,
    -- 1046: del x172
    .del 257,
    -- 1047: x176 -= einsum("ijab->jiba", x173)
    .add 238 (.ein [(346, [0, 1, 2, 3])] [1, 0, 3, 2]) (-1) 1,
    -- 1048: del x173
    .del 346,
    -- 1049: t2new_bbbb += einsum("ijab->ijab", x176)
    .add 274 (.ein [(238, [0, 1, 2, 3])] [0, 1, 2, 3]) 1 1,
    -- 1050: t2new_bbbb -= einsum("ijab->ijba", x176)
    .add 274 (.ein [(238, [0, 1, 2, 3])] [0, 1, 3, 2]) (-1) 1,
    -- 1051: t2new_bbbb -= einsum("ijab->jiab", x176)
    .add 274 (.ein [(238, [0, 1, 2, 3])] [1, 0, 2, 3]) (-1) 1,
    -- 1052: t2new_bbbb += einsum("ijab->jiba", x176)
    .add 274 (.ein [(238, [0, 1, 2, 3])] [1, 0, 3, 2]) 1 1,
    -- 1053: del x176
    .del 238,
    -- 1054: x272 += einsum("ab->ba", x171) * -1
    .add 148 (.ein [(345, [0, 1])] [1, 0]) (-1) 1,
    -- 1055: x328 += einsum("ab->ba", x171) * -1
    .add 144 (.ein [(345, [0, 1])] [1, 0]) (-1) 1,
    -- 1056: del x171
    .del 345,
    -- 1057: x179 = np.zeros((nocc[1], nocc[1], nocc[1], nocc[1]), dtype=types[float])
    .zeros 347 [4, 4, 4, 4],
    -- 1058: x179 += einsum("ia,jkla->ijlk", t1.bb, v.bbbb.ooov)
    .add 347 (.ein [(18, [0, 1]), (33, [2, 3, 4, 1])] [0, 2, 4, 3]) 1 1,
    -- 1059: x180 = np.zeros((nocc[1], nocc[1], nvir[1], nvir[1]), dtype=types[float])
    .zeros 348 [4, 4, 5, 5],
    -- 1060: x180 += einsum("ijab,kijl->klab", t2.bbbb, x179)
    .add 348 (.ein [(22, [0, 1, 2, 3]), (347, [4, 0, 1, 5])] [4, 5, 2, 3]) 1 1,
    -- 1061: x209 += einsum("ijab->ijab", x180)
    .add 223 (.ein [(348, [0, 1, 2, 3])] [0, 1, 2, 3]) 1 1,
    -- 1062: del x180
    .del 348,
    -- 1063: x188 = np.zeros((nocc[1], nocc[1], nocc[1], nvir[1]), dtype=types[float])
    .zeros 349 [4, 4, 4, 5],
    -- 1064: x188 += einsum("ia,jkil->jkla", t1.bb, x179)
    .add 349 (.ein [(18, [0, 1]), (347, [2, 3, 0, 4])] [2, 3, 4, 1]) 1 1,
    -- 1065: del x179
    .del 347,
    -- 1066: x196 += einsum("ijka->ijka", x188)
    .add 138 (.ein [(349, [0, 1, 2, 3])] [0, 1, 2, 3]) 1 1,
    -- 1067: del x188
    .del 349,
    -- 1068: x181 = np.zeros((nvir[1], nvir[1]), dtype=types[float])
    .zeros 350 [5, 5],
    -- 1069: x181 += einsum("ijab,iajc->bc", t2.abab, v.aabb.ovov)
    .add 350 (.ein [(14, [0, 1, 2, 3]), (13, [0, 2, 1, 4])] [3, 4]) 1 1,
    -- 1070: x182 = np.zeros((nocc[1], nocc[1], nvir[1], nvir[1]), dtype=types[float])
    .zeros 351 [4, 4, 5, 5],
    -- 1071: x182 += einsum("ab,ijbc->jiac", x181, t2.bbbb)
    .add 351 (.ein [(350, [0, 1]), (22, [2, 3, 1, 4])] [3, 2, 0, 4]) 1 1,
    -- 1072: x209 += einsum("ijab->ijab", x182) * -1
    .add 223 (.ein [(351, [0, 1, 2, 3])] [0, 1, 2, 3]) (-1) 1,
    -- 1073: del x182
    .del 351,
    -- 1074: x272 += einsum("ab->ab", x181) * -1
    .add 148 (.ein [(350, [0, 1])] [0, 1]) (-1) 1,
    -- 1075: x328 += einsum("ab->ab", x181) * -1
    .add 144 (.ein [(350, [0, 1])] [0, 1]) (-1) 1,
    -- 1076: del x181
    .del 350,
    -- 1077: x183 = np.zeros((nocc[1], nvir[1], nvir[1], nvir[1]), dtype=types[float])
    .zeros 352 [4, 5, 5, 5],
    -- 1078: x183 += einsum("iabc->ibac", v.bbbb.ovvv)
    .add 352 (.ein [(34, [0, 1, 2, 3])] [0, 2, 1, 3]) 1 1,
    -- 1079: x183 += einsum("iabc->ibca", v.bbbb.ovvv) * -1
    .add 352 (.ein [(34, [0, 1, 2, 3])] [0, 2, 3, 1]) (-1) 1,
    -- 1080: x184 = np.zeros((nocc[1], nocc[1], nvir[1], nvir[1]), dtype=types[float])
    .zeros 353 [4, 4, 5, 5],
    -- 1081: x184 += einsum("ia,jbac->jibc", t1.bb, x183)
    .add 353 (.ein [(18, [0, 1]), (352, [2, 3, 1, 4])] [2, 0, 3, 4]) 1 1,
    -- 1082: x185 = np.zeros((nocc[1], nocc[1], nvir[1], nvir[1]), dtype=types[float])
    .zeros 354 [4, 4, 5, 5],
    -- 1083: x185 += einsum("ijab,ikbc->jkac", x184, x41) * -1
    .add 354 (.ein [(353, [0, 1, 2, 3]), (220, [0, 4, 3, 5])] [1, 4, 2, 5]) (-1) 1,
    -- 1084: x209 += einsum("ijab->ijba", x185) * -1
    .add 223 (.ein [(354, [0, 1, 2, 3])] [0, 1, 3, 2]) (-1) 1,
    -- 1085: del x185
    .del 354,
    -- 1086: x236 += einsum("ijab->ijab", x184) * -1
    .add 248 (.ein [(353, [0, 1, 2, 3])] [0, 1, 2, 3]) (-1) 1,
    -- 1087: del x184
    .del 353,
    -- 1088: x199 = np.zeros((nvir[1], nvir[1]), dtype=types[float])
    .zeros 355 [5, 5],
    -- 1089: x199 += einsum("ia,ibac->bc", t1.bb, x183)
    .add 355 (.ein [(18, [0, 1]), (352, [0, 2, 1, 3])] [2, 3]) 1 1,
    -- 1090: del x183
    .del 352,
    -- 1091: x200 += einsum("ab->ab", x199) * -1
    .add 244 (.ein [(355, [0, 1])] [0, 1]) (-1) 1,
    -- 1092: del x199
    .del 355,
    -- 1093: x201 = np.zeros((nocc[1], nocc[1], nvir[1], nvir[1]), dtype=types[float])
    .zeros 356 [4, 4, 5, 5],
    -- 1094: x201 += einsum("ab,ijbc->ijac", x200, t2.bbbb)
    .add 356 (.ein [(244, [0, 1]), (22, [2, 3, 1, 4])] [2, 3, 0, 4]) 1 1,
    -- 1095: del x200
    .del 244,
    -- 1096: x209 += einsum("ijab->jiba", x201)
    .add 223 (.ein [(356, [0, 1, 2, 3])] [1, 0, 3, 2]) 1 1,
    -- 1097: del x201
    .del 356,
    -- 1098: x189 = np.zeros((nocc[1], nocc[1], nocc[1], nvir[1]), dtype=types[float])
    .zeros 357 [4, 4, 4, 5],
    -- 1099: x189 += einsum("ijab,kbca->jikc", t2.bbbb, v.bbbb.ovvv)
    .add 357 (.ein [(22, [0, 1, 2, 3]), (34, [4, 3, 5, 2])] [1, 0, 4, 5]) 1 1,
    -- 1100: x196 += einsum("ijka->ikja", x189)
    .add 138 (.ein [(357, [0, 1, 2, 3])] [0, 2, 1, 3]) 1 1,
    -- 1101: del x189
    .del 357,
    -- 1102: x190 = np.zeros((nocc[1], nocc[1], nvir[1], nvir[1]), dtype=types[float])
    .zeros 358 [4, 4, 5, 5],
    -- 1103: x190 += einsum("ia,jbca->ijcb", t1.bb, v.bbbb.ovvv)
    .add 358 (.ein [(18, [0, 1]), (34, [2, 3, 4, 1])] [0, 2, 4, 3]) 1 1,
    -- 1104: x191 = np.zeros((nocc[1], nocc[1], nocc[1], nvir[1]), dtype=types[float])
    .zeros 359 [4, 4, 4, 5],
    -- 1105: x191 += einsum("ia,jkba->ijkb", t1.bb, x190)
    .add 359 (.ein [(18, [0, 1]), (358, [2, 3, 4, 1])] [0, 2, 3, 4]) 1 1,
    -- 1106: del x190
    .del 358,
    -- 1107: x196 += einsum("ijka->ikja", x191)
    .add 138 (.ein [(359, [0, 1, 2, 3])] [0, 2, 1, 3]) 1 1,
    -- 1108: del x191
    .del 359,
    -- 1109: x194 = np.zeros((nocc[1], nocc[1], nocc[1], nvir[1]), dtype=types[float])
    .zeros 360 [4, 4, 4, 5],
    -- 1110: x194 += einsum("ijka->ikja", v.bbbb.ooov) * -1
    .add 360 (.ein [(33, [0, 1, 2, 3])] [0, 2, 1, 3]) (-1) 1,
    -- 1111: x194 += einsum("ijka->kija", v.bbbb.ooov)
    .add 360 (.ein [(33, [0, 1, 2, 3])] [2, 0, 1, 3]) 1 1,
    -- 1112: x195 = np.zeros((nocc[1], nocc[1], nocc[1], nvir[1]), dtype=types[float])
    .zeros 361 [4, 4, 4, 5],
    -- 1113: x195 += einsum("ijka,ilab->jklb", x194, x41)
    .add 361 (.ein [(360, [0, 1, 2, 3]), (220, [0, 4, 3, 5])] [1, 2, 4, 5]) 1 1,
    -- 1114: x196 += einsum("ijka->kija", x195)
    .add 138 (.ein [(361, [0, 1, 2, 3])] [2, 0, 1, 3]) 1 1,
    -- 1115: del x195
    .del 361,
    -- 1116: x197 = np.zeros((nocc[1], nocc[1], nvir[1], nvir[1]), dtype=types[float])
    .zeros 362 [4, 4, 5, 5],
    -- 1117: x197 += einsum("ia,jikb->jkba", t1.bb, x196)
    .add 362 (.ein [(18, [0, 1]), (138, [2, 0, 3, 4])] [2, 3, 4, 1]) 1 1,
    -- 1118: del x196
    .del 138,
    -- 1119: x209 += einsum("ijab->ijba", x197)
    .add 223 (.ein [(362, [0, 1, 2, 3])] [0, 1, 3, 2]) 1 1,
    -- 1120: del x197
    .del 362,
    -- 1121: x203 = np.zeros((nocc[1], nocc[1]), dtype=types[float])
    .zeros 363 [4, 4],
    -- 1122: x203 += einsum("ia,ijka->jk", t1.bb, x194)
    .add 363 (.ein [(18, [0, 1]), (360, [0, 2, 3, 1])] [2, 3]) 1 1,
    -- 1123: del x194
    .del 360,
    -- 1124: x204 += einsum("ij->ij", x203) * -1
    .add 246 (.ein [(363, [0, 1])] [0, 1]) (-1) 1,
    -- 1125: del x203
    .del 363,
    -- 1126: x205 = np.zeros((nocc[1], nocc[1], nvir[1], nvir[1]), dtype=types[float])
    .zeros 364 [4, 4, 5, 5],
    -- 1127: x205 += einsum("ij,ikab->jkab", x204, t2.bbbb)
    .add 364 (.ein [(246, [0, 1]), (22, [0, 2, 3, 4])] [1, 2, 3, 4]) 1 1,
    -- 1128: del x204
    .del 246,
    -- 1129: x209 += einsum("ijab->jiba", x205) * -1
    .add 223 (.ein [(364, [0, 1, 2, 3])] [1, 0, 3, 2]) (-1) 1,
    -- 1130: del x205
    .del 364,
    -- 1131: t2new_bbbb += einsum("ijab->ijab", x209) * -1
    .add 274 (.ein [(223, [0, 1, 2, 3])] [0, 1, 2, 3]) (-1) 1,
    -- 1132: t2new_bbbb += einsum("ijab->ijba", x209)
    .add 274 (.ein [(223, [0, 1, 2, 3])] [0, 1, 3, 2]) 1 1,
    -- 1133: t2new_bbbb += einsum("ijab->jiab", x209)
    .add 274 (.ein [(223, [0, 1, 2, 3])] [1, 0, 2, 3]) 1 1,
    -- 1134: t2new_bbbb += einsum("ijab->jiba", x209) * -1
    .add 274 (.ein [(223, [0, 1, 2, 3])] [1, 0, 3, 2]) (-1) 1,
    -- 1135: del x209
    .del 223,
    -- 1136: x210 = np.zeros((nocc[1], nocc[1], nvir[1], nvir[1]), dtype=types[float])
    .zeros 365 [4, 4, 5, 5],
    -- 1137: x210 += einsum("ijab,ikjl->lkba", t2.bbbb, v.bbbb.oooo)
    .add 365 (.ein [(22, [0, 1, 2, 3]), (49, [0, 4, 1, 5])] [5, 4, 3, 2]) 1 1,
    -- 1138: x212 = np.zeros((nocc[1], nocc[1], nvir[1], nvir[1]), dtype=types[float])
    .zeros 366 [4, 4, 5, 5],
    -- 1139: x212 += einsum("ijab->jiba", x210)
    .add 366 (.ein [(365, [0, 1, 2, 3])] [1, 0, 3, 2]) 1 1,
    -- 1140: del x210
    .del 365,
    -- 1141: x211 = np.zeros((nocc[1], nocc[1], nvir[1], nvir[1]), dtype=types[float])
    .zeros 367 [4, 4, 5, 5],
    -- 1142: x211 += einsum("ijab,cbda->ijdc", t2.bbbb, v.bbbb.vvvv)
    .add 367 (.ein [(22, [0, 1, 2, 3]), (50, [4, 3, 5, 2])] [0, 1, 5, 4]) 1 1,
    -- 1143: x212 += einsum("ijab->jiba", x211)
    .add 366 (.ein [(367, [0, 1, 2, 3])] [1, 0, 3, 2]) 1 1,
    -- 1144: del x211
    .del 367,
    -- 1145: t2new_bbbb += einsum("ijab->ijba", x212) * -1
    .add 274 (.ein [(366, [0, 1, 2, 3])] [0, 1, 3, 2]) (-1) 1,
    -- 1146: t2new_bbbb += einsum("ijab->ijab", x212)
    .add 274 (.ein [(366, [0, 1, 2, 3])] [0, 1, 2, 3]) 1 1,
    -- 1147: del x212
    .del 366,
    -- 1148: x213 = np.zeros((nocc[1], nvir[1], nvir[1], nvir[1]), dtype=types[float])
    .zeros 368 [4, 5, 5, 5],
    -- 1149: x213 += einsum("ia,bacd->icbd", t1.bb, v.bbbb.vvvv)
    .add 368 (.ein [(18, [0, 1]), (50, [2, 1, 3, 4])] [0, 3, 2, 4]) 1 1,
    -- 1150: x214 = np.zeros((nocc[1], nocc[1], nvir[1], nvir[1]), dtype=types[float])
    .zeros 369 [4, 4, 5, 5],
    -- 1151: x214 += einsum("ia,jbca->ijbc", t1.bb, x213)
    .add 369 (.ein [(18, [0, 1]), (368, [2, 3, 4, 1])] [0, 2, 3, 4]) 1 1,
    -- 1152: del x213
    .del 368,
    -- 1153: x222 = np.zeros((nocc[1], nocc[1], nvir[1], nvir[1]), dtype=types[float])
    .zeros 370 [4, 4, 5, 5],
    -- 1154: x222 += einsum("ijab->ijab", x214)
    .add 370 (.ein [(369, [0, 1, 2, 3])] [0, 1, 2, 3]) 1 1,
    -- 1155: del x214
    .del 369,
    -- 1156: x215 = np.zeros((nocc[1], nocc[1], nocc[1], nocc[1]), dtype=types[float])
    .zeros 371 [4, 4, 4, 4],
    -- 1157: x215 += einsum("ijab,kbla->ijlk", t2.bbbb, v.bbbb.ovov)
    .add 371 (.ein [(22, [0, 1, 2, 3]), (23, [4, 3, 5, 2])] [0, 1, 5, 4]) 1 1,
    -- 1158: x217 += einsum("ijkl->jilk", x215)
    .add 204 (.ein [(371, [0, 1, 2, 3])] [1, 0, 3, 2]) 1 1,
    -- 1159: x218 = np.zeros((nocc[1], nocc[1], nvir[1], nvir[1]), dtype=types[float])
    .zeros 372 [4, 4, 5, 5],
    -- 1160: x218 += einsum("ijab,klji->klab", t2.bbbb, x217)
    .add 372 (.ein [(22, [0, 1, 2, 3]), (204, [4, 5, 1, 0])] [4, 5, 2, 3]) 1 1,
    -- 1161: del x217
    .del 204,
    -- 1162: x222 += einsum("ijab->jiab", x218)
    .add 370 (.ein [(372, [0, 1, 2, 3])] [1, 0, 2, 3]) 1 1,
    -- 1163: del x218
    .del 372,
    -- 1164: x219 = np.zeros((nocc[1], nocc[1], nocc[1], nocc[1]), dtype=types[float])
    .zeros 373 [4, 4, 4, 4],
    -- 1165: x219 += einsum("ijkl->lkji", x215)
    .add 373 (.ein [(371, [0, 1, 2, 3])] [3, 2, 1, 0]) 1 1,
    -- 1166: del x215
    .del 371,
    -- 1167: x219 += einsum("ijkl->kilj", v.bbbb.oooo)
    .add 373 (.ein [(49, [0, 1, 2, 3])] [2, 0, 3, 1]) 1 1,
    -- 1168: x220 = np.zeros((nocc[1], nocc[1], nocc[1], nvir[1]), dtype=types[float])
    .zeros 374 [4, 4, 4, 5],
    -- 1169: x220 += einsum("ia,ijkl->jkla", t1.bb, x219)
    .add 374 (.ein [(18, [0, 1]), (373, [0, 2, 3, 4])] [2, 3, 4, 1]) 1 1,
    -- 1170: del x219
    .del 373,
    -- 1171: x221 = np.zeros((nocc[1], nocc[1], nvir[1], nvir[1]), dtype=types[float])
    .zeros 375 [4, 4, 5, 5],
    -- 1172: x221 += einsum("ia,ijkb->kjba", t1.bb, x220)
    .add 375 (.ein [(18, [0, 1]), (374, [0, 2, 3, 4])] [3, 2, 4, 1]) 1 1,
    -- 1173: del x220
    .del 374,
    -- 1174: x222 += einsum("ijab->jiab", x221)
    .add 370 (.ein [(375, [0, 1, 2, 3])] [1, 0, 2, 3]) 1 1,
    -- 1175: del x221
    .del 375,
    -- 1176: t2new_bbbb += einsum("ijab->ijab", x222)
    .add 274 (.ein [(370, [0, 1, 2, 3])] [0, 1, 2, 3]) 1 1,
    -- 1177: t2new_bbbb += einsum("ijab->ijba", x222) * -1
    .add 274 (.ein [(370, [0, 1, 2, 3])] [0, 1, 3, 2]) (-1) 1,
    -- 1178: del x222
    .del 370,
    -- 1179: x229 = np.zeros((nocc[0], nocc[1], nvir[0], nvir[1]), dtype=types[float])
    .zeros 376 [0, 4, 1, 5],
    -- 1180: x229 += einsum("ijab,cadb->ijcd", t2.abab, v.aabb.vvvv)
    .add 376 (.ein [(14, [0, 1, 2, 3]), (51, [4, 2, 5, 3])] [0, 1, 4, 5]) 1 1,
    -- 1181: t2new_baba += einsum("ijab->jiba", x229)
    .add 184 (.ein [(376, [0, 1, 2, 3])] [1, 0, 3, 2]) 1 1,
    -- 1182: t2new_abab += einsum("ijab->ijab", x229)
    .add 185 (.ein [(376, [0, 1, 2, 3])] [0, 1, 2, 3]) 1 1,
    -- 1183: del x229
    .del 376,
    -- 1184: x230 = np.zeros((nocc[0], nocc[1], nvir[0], nvir[1]), dtype=types[float])
    .zeros 377 [0, 4, 1, 5],
    -- 1185: x230 += einsum("ia,bjca->jibc", t1.bb, v.aabb.vovv)
    .add 377 (.ein [(18, [0, 1]), (52, [2, 3, 4, 1])] [3, 0, 2, 4]) 1 1,
    -- 1186: t2new_baba += einsum("ijab->jiba", x230)
    .add 184 (.ein [(377, [0, 1, 2, 3])] [1, 0, 3, 2]) 1 1,
    -- 1187: t2new_abab += einsum("ijab->ijab", x230)
    .add 185 (.ein [(377, [0, 1, 2, 3])] [0, 1, 2, 3]) 1 1,
    -- 1188: del x230
    .del 377,
    -- 1189: x232 += einsum("iabj->ijab", v.aabb.ovvo)
    .add 118 (.ein [(47, [0, 1, 2, 3])] [0, 3, 1, 2]) 1 1,
    -- 1190: x233 = np.zeros((nocc[0], nocc[1], nvir[0], nvir[1]), dtype=types[float])
    .zeros 378 [0, 4, 1, 5],
    -- 1191: x233 += einsum("ijab,ikac->kjcb", x232, x63)
    .add 378 (.ein [(118, [0, 1, 2, 3]), (263, [0, 4, 2, 5])] [4, 1, 5, 3]) 1 1,
    -- 1192: del x232
    .del 118,
    -- 1193: del x63
    .del 263,
    -- 1194: t2new_baba += einsum("ijab->jiba", x233)
    .add 184 (.ein [(378, [0, 1, 2, 3])] [1, 0, 3, 2]) 1 1,
    -- 1195: t2new_abab += einsum("ijab->ijab", x233)
    .add 185 (.ein [(378, [0, 1, 2, 3])] [0, 1, 2, 3]) 1 1,
    -- 1196: del x233
    .del 378,
    -- 1197: x234 = np.zeros((nocc[1], nocc[1], nvir[1], nvir[1]), dtype=types[float])
    .zeros 379 [4, 4, 5, 5],
    -- 1198: x234 += einsum("ijab,iakc->jkbc", t2.abab, v.aabb.ovov)
    .add 379 (.ein [(14, [0, 1, 2, 3]), (13, [0, 2, 4, 5])] [1, 4, 3, 5]) 1 1,
    -- 1199: x236 += einsum("ijab->jiab", x234)
    .add 248 (.ein [(379, [0, 1, 2, 3])] [1, 0, 2, 3]) 1 1,
    -- 1200: del x234
    .del 379,
    -- 1201: x236 += einsum("iabj->ijba", v.bbbb.ovvo)
    .add 248 (.ein [(36, [0, 1, 2, 3])] [0, 3, 2, 1]) 1 1,
    -- 1202: x236 += einsum("ijab->ijab", v.bbbb.oovv) * -1
    .add 248 (.ein [(37, [0, 1, 2, 3])] [0, 1, 2, 3]) (-1) 1,
    -- 1203: x237 = np.zeros((nocc[0], nocc[1], nvir[0], nvir[1]), dtype=types[float])
    .zeros 380 [0, 4, 1, 5],
    -- 1204: x237 += einsum("ijab,jkcb->ikac", t2.abab, x236)
    .add 380 (.ein [(14, [0, 1, 2, 3]), (248, [1, 4, 5, 3])] [0, 4, 2, 5]) 1 1,
    -- 1205: del x236
    .del 248,
    -- 1206: t2new_baba += einsum("ijab->jiba", x237)
    .add 184 (.ein [(380, [0, 1, 2, 3])] [1, 0, 3, 2]) 1 1,
    -- 1207: t2new_abab += einsum("ijab->ijab", x237)
    .add 185 (.ein [(380, [0, 1, 2, 3])] [0, 1, 2, 3]) 1 1,
    -- 1208: del x237
    .del 380,
    -- 1209: x238 += einsum("iabj->jiba", v.bbaa.ovvo)
    .add 262 (.ein [(42, [0, 1, 2, 3])] [3, 0, 2, 1]) 1 1,
    -- 1210: x239 = np.zeros((nocc[0], nocc[1], nvir[0], nvir[1]), dtype=types[float])
    .zeros 381 [0, 4, 1, 5],
    -- 1211: x239 += einsum("ijab,kicb->kjca", x164, x238)
    .add 381 (.ein [(340, [0, 1, 2, 3]), (262, [4, 0, 5, 3])] [4, 1, 5, 2]) 1 1,
    -- 1212: t2new_baba += einsum("ijab->jiba", x239)
    .add 184 (.ein [(381, [0, 1, 2, 3])] [1, 0, 3, 2]) 1 1,
    -- 1213: t2new_abab += einsum("ijab->ijab", x239)
    .add 185 (.ein [(381, [0, 1, 2, 3])] [0, 1, 2, 3]) 1 1,
    -- 1214: del x239
    .del 381,
    -- 1215: u12new_aa += einsum("wxia,jiba->xwjb", u12.bb, x238)
    .add 186 (.ein [(16, [0, 1, 2, 3]), (262, [4, 2, 5, 3])] [1, 0, 4, 5]) 1 1,
    -- 1216: del x238
    .del 262,
    -- 1217: x240 = np.zeros((nocc[0], nvir[0], nvir[0], nvir[0]), dtype=types[float])
    .zeros 382 [0, 1, 1, 1],
    -- 1218: x240 -= einsum("iabc->ibac", v.aaaa.ovvv)
    .add 382 (.ein [(12, [0, 1, 2, 3])] [0, 2, 1, 3]) (-1) 1,
    -- 1219: x240 += einsum("iabc->ibca", v.aaaa.ovvv)
    .add 382 (.ein [(12, [0, 1, 2, 3])] [0, 2, 3, 1]) 1 1,
    -- 1220: x241 = np.zeros((nocc[0], nocc[0], nvir[0], nvir[0]), dtype=types[float])
    .zeros 383 [0, 0, 1, 1],
    -- 1221: x241 += einsum("ia,jbca->jibc", t1.aa, x240)
    .add 383 (.ein [(8, [0, 1]), (382, [2, 3, 4, 1])] [2, 0, 3, 4]) 1 1,
    -- 1222: x242 = np.zeros((nocc[0], nocc[0], nvir[0], nvir[0]), dtype=types[float])
    .zeros 384 [0, 0, 1, 1],
    -- 1223: x242 -= einsum("ijab->ijab", x241)
    .add 384 (.ein [(383, [0, 1, 2, 3])] [0, 1, 2, 3]) (-1) 1,
    -- 1224: del x241
    .del 383,
    -- 1225: x340 = np.zeros((nbos, nvir[0], nvir[0]), dtype=types[float])
    .zeros 385 [2, 1, 1],
    -- 1226: x340 += einsum("wia,ibca->wbc", u11.aa, x240)
    .add 385 (.ein [(19, [0, 1, 2]), (382, [1, 3, 4, 2])] [0, 3, 4]) 1 1,
    -- 1227: del x240
    .del 382,
    -- 1228: x341 = np.zeros((nbos, nvir[0], nvir[0]), dtype=types[float])
    .zeros 386 [2, 1, 1],
    -- 1229: x341 -= einsum("wab->wba", x340)
    .add 386 (.ein [(385, [0, 1, 2])] [0, 2, 1]) (-1) 1,
    -- 1230: del x340
    .del 385,
    -- 1231: x242 += einsum("iabj->ijba", v.aaaa.ovvo)
    .add 384 (.ein [(26, [0, 1, 2, 3])] [0, 3, 2, 1]) 1 1,
    -- 1232: x242 -= einsum("ijab->ijab", v.aaaa.oovv)
    .add 384 (.ein [(27, [0, 1, 2, 3])] [0, 1, 2, 3]) (-1) 1,
    -- 1233: x243 = np.zeros((nocc[0], nocc[1], nvir[0], nvir[1]), dtype=types[float])
    .zeros 387 [0, 4, 1, 5],
    -- 1234: x243 += einsum("ijab,ikca->kjcb", t2.abab, x242)
    .add 387 (.ein [(14, [0, 1, 2, 3]), (384, [0, 4, 5, 2])] [4, 1, 5, 3]) 1 1,
    -- 1235: t2new_baba += einsum("ijab->jiba", x243)
    .add 184 (.ein [(387, [0, 1, 2, 3])] [1, 0, 3, 2]) 1 1,
    -- 1236: t2new_abab += einsum("ijab->ijab", x243)
    .add 185 (.ein [(387, [0, 1, 2, 3])] [0, 1, 2, 3]) 1 1,
    -- 1237: del x243
    .del 387,
    -- 1238: u12new_aa += einsum("wxia,ijba->xwjb", u12.aa, x242)
    .add 186 (.ein [(20, [0, 1, 2, 3]), (384, [2, 4, 5, 3])] [1, 0, 4, 5]) 1 1,
    -- 1239: del x242
    .del 384,
    -- 1240: x244 = np.zeros((nocc[0], nocc[0], nvir[1], nvir[1]), dtype=types[float])
    .zeros 388 [0, 0, 5, 5],
    -- 1241: x244 += einsum("ia,jabc->ijbc", t1.aa, v.aabb.ovvv)
    .add 388 (.ein [(8, [0, 1]), (39, [2, 1, 3, 4])] [0, 2, 3, 4]) 1 1,
    -- 1242: x246 = np.zeros((nocc[0], nocc[0], nvir[1], nvir[1]), dtype=types[float])
    .zeros 389 [0, 0, 5, 5],
    -- 1243: x246 += einsum("ijab->jiab", x244)
    .add 389 (.ein [(388, [0, 1, 2, 3])] [1, 0, 2, 3]) 1 1,
    -- 1244: del x244
    .del 388,
    -- 1245: x245 = np.zeros((nocc[0], nocc[0], nvir[1], nvir[1]), dtype=types[float])
    .zeros 390 [0, 0, 5, 5],
    -- 1246: x245 += einsum("ijab,kajc->ikbc", t2.abab, v.aabb.ovov)
    .add 390 (.ein [(14, [0, 1, 2, 3]), (13, [4, 2, 1, 5])] [0, 4, 3, 5]) 1 1,
    -- 1247: x246 -= einsum("ijab->jiab", x245)
    .add 389 (.ein [(390, [0, 1, 2, 3])] [1, 0, 2, 3]) (-1) 1,
    -- 1248: del x245
    .del 390,
    -- 1249: x246 += einsum("ijab->ijab", v.aabb.oovv)
    .add 389 (.ein [(53, [0, 1, 2, 3])] [0, 1, 2, 3]) 1 1,
    -- 1250: x247 = np.zeros((nocc[0], nocc[1], nvir[0], nvir[1]), dtype=types[float])
    .zeros 391 [0, 4, 1, 5],
    -- 1251: x247 += einsum("ijab,ikcb->kjac", t2.abab, x246)
    .add 391 (.ein [(14, [0, 1, 2, 3]), (389, [0, 4, 5, 3])] [4, 1, 2, 5]) 1 1,
    -- 1252: del x246
    .del 389,
    -- 1253: t2new_baba -= einsum("ijab->jiba", x247)
    .add 184 (.ein [(391, [0, 1, 2, 3])] [1, 0, 3, 2]) (-1) 1,
    -- 1254: t2new_abab -= einsum("ijab->ijab", x247)
    .add 185 (.ein [(391, [0, 1, 2, 3])] [0, 1, 2, 3]) (-1) 1,
    -- 1255: del x247
    .del 391,
    -- 1256: x248 = np.zeros((nocc[0], nocc[0], nocc[1], nocc[1]), dtype=types[float])
    .zeros 392 [0, 0, 4, 4],
    -- 1257: x248 += einsum("ia,jkla->jkil", t1.bb, v.aabb.ooov)
    .add 392 (.ein [(18, [0, 1]), (15, [2, 3, 4, 1])] [2, 3, 0, 4]) 1 1,
    -- 1258: x252 = np.zeros((nocc[0], nocc[0], nocc[1], nocc[1]), dtype=types[float])
    .zeros 393 [0, 0, 4, 4],
    -- 1259: x252 += einsum("ijkl->ijlk", x248)
    .add 393 (.ein [(392, [0, 1, 2, 3])] [0, 1, 3, 2]) 1 1,
    -- 1260: x265 += einsum("ijkl->ijlk", x248)
    .add 218 (.ein [(392, [0, 1, 2, 3])] [0, 1, 3, 2]) 1 1,
    -- 1261: del x248
    .del 392,
    -- 1262: x249 = np.zeros((nocc[0], nocc[0], nocc[1], nocc[1]), dtype=types[float])
    .zeros 394 [0, 0, 4, 4],
    -- 1263: x249 += einsum("ijab,kalb->ikjl", t2.abab, v.aabb.ovov)
    .add 394 (.ein [(14, [0, 1, 2, 3]), (13, [4, 2, 5, 3])] [0, 4, 1, 5]) 1 1,
    -- 1264: x252 += einsum("ijkl->jilk", x249)
    .add 393 (.ein [(394, [0, 1, 2, 3])] [1, 0, 3, 2]) 1 1,
    -- 1265: x265 += einsum("ijkl->jilk", x249)
    .add 218 (.ein [(394, [0, 1, 2, 3])] [1, 0, 3, 2]) 1 1,
    -- 1266: del x249
    .del 394,
    -- 1267: x250 += einsum("iajk->ijka", v.aabb.ovoo)
    .add 215 (.ein [(35, [0, 1, 2, 3])] [0, 2, 3, 1]) 1 1,
    -- 1268: x251 = np.zeros((nocc[0], nocc[0], nocc[1], nocc[1]), dtype=types[float])
    .zeros 395 [0, 0, 4, 4],
    -- 1269: x251 += einsum("ia,jkla->jikl", t1.aa, x250)
    .add 395 (.ein [(8, [0, 1]), (215, [2, 3, 4, 1])] [2, 0, 3, 4]) 1 1,
    -- 1270: del x250
    .del 215,
    -- 1271: x252 += einsum("ijkl->ijkl", x251)
    .add 393 (.ein [(395, [0, 1, 2, 3])] [0, 1, 2, 3]) 1 1,
    -- 1272: del x251
    .del 395,
    -- 1273: x252 += einsum("ijkl->ijkl", v.aabb.oooo)
    .add 393 (.ein [(54, [0, 1, 2, 3])] [0, 1, 2, 3]) 1 1,
    -- 1274: x253 = np.zeros((nocc[0], nocc[1], nvir[0], nvir[1]), dtype=types[float])
    .zeros 396 [0, 4, 1, 5],
    -- 1275: x253 += einsum("ijab,ikjl->klab", t2.abab, x252)
    .add 396 (.ein [(14, [0, 1, 2, 3]), (393, [0, 4, 1, 5])] [4, 5, 2, 3]) 1 1,
    -- 1276: del x252
    .del 393,
    -- 1277: t2new_baba += einsum("ijab->jiba", x253)
    .add 184 (.ein [(396, [0, 1, 2, 3])] [1, 0, 3, 2]) 1 1,
    -- 1278: t2new_abab += einsum("ijab->ijab", x253)
    .add 185 (.ein [(396, [0, 1, 2, 3])] [0, 1, 2, 3]) 1 1,
    -- 1279: del x253
    .del 396,
    -- 1280: x254 = np.zeros((nocc[1], nocc[1], nvir[0], nvir[0]), dtype=types[float])
    .zeros 397 [4, 4, 1, 1],
    -- 1281: x254 += einsum("ia,jabc->ijbc", t1.bb, v.bbaa.ovvv)
    .add 397 (.ein [(18, [0, 1]), (29, [2, 1, 3, 4])] [0, 2, 3, 4]) 1 1,
    -- 1282: x255 = np.zeros((nocc[1], nocc[1], nvir[0], nvir[0]), dtype=types[float])
    .zeros 398 [4, 4, 1, 1],
    -- 1283: x255 += einsum("ijab->jiab", x254)
    .add 398 (.ein [(397, [0, 1, 2, 3])] [1, 0, 2, 3]) 1 1,
    -- 1284: x285 = np.zeros((nocc[1], nocc[1], nvir[0], nvir[0]), dtype=types[float])
    .zeros 399 [4, 4, 1, 1],
    -- 1285: x285 += einsum("ijab->jiab", x254)
    .add 399 (.ein [(397, [0, 1, 2, 3])] [1, 0, 2, 3]) 1 1,
    -- 1286: del x254
    .del 397,
    -- 1287: x255 += einsum("ijab->ijab", v.bbaa.oovv)
    .add 398 (.ein [(55, [0, 1, 2, 3])] [0, 1, 2, 3]) 1 1,
    -- 1288: x256 = np.zeros((nocc[0], nocc[1], nvir[0], nvir[1]), dtype=types[float])
    .zeros 400 [0, 4, 1, 5],
    -- 1289: x256 += einsum("ijab,jkca->ikcb", t2.abab, x255)
    .add 400 (.ein [(14, [0, 1, 2, 3]), (398, [1, 4, 5, 2])] [0, 4, 5, 3]) 1 1,
    -- 1290: del x255
    .del 398,
    -- 1291: t2new_baba -= einsum("ijab->jiba", x256)
    .add 184 (.ein [(400, [0, 1, 2, 3])] [1, 0, 3, 2]) (-1) 1,
    -- 1292: t2new_abab -= einsum("ijab->ijab", x256)
    .add 185 (.ein [(400, [0, 1, 2, 3])] [0, 1, 2, 3]) (-1) 1,
    -- 1293: del x256
    .del 400,
    -- 1294: x257 = np.zeros((nocc[0], nocc[0], nocc[1], nvir[1]), dtype=types[float])
    .zeros 401 [0, 0, 4, 5],
    -- 1295: x257 += einsum("ia,jkba->jkib", t1.bb, v.aabb.oovv)
    .add 401 (.ein [(18, [0, 1]), (53, [2, 3, 4, 1])] [2, 3, 0, 4]) 1 1,
    -- 1296: x269 += einsum("ijka->ijka", x257)
    .add 126 (.ein [(401, [0, 1, 2, 3])] [0, 1, 2, 3]) 1 1,
    -- 1297: del x257
    .del 401,
    -- 1298: x258 = np.zeros((nocc[0], nocc[0], nocc[1], nvir[1]), dtype=types[float])
    .zeros 402 [0, 0, 4, 5],
    -- 1299: x258 += einsum("ijab,kacb->ikjc", t2.abab, v.aabb.ovvv)
    .add 402 (.ein [(14, [0, 1, 2, 3]), (39, [4, 2, 5, 3])] [0, 4, 1, 5]) 1 1,
    -- 1300: x269 += einsum("ijka->jika", x258)
    .add 126 (.ein [(402, [0, 1, 2, 3])] [1, 0, 2, 3]) 1 1,
    -- 1301: del x258
    .del 402,
    -- 1302: x259 += einsum("ijka->ikja", v.aaaa.ooov)
    .add 82 (.ein [(11, [0, 1, 2, 3])] [0, 2, 1, 3]) 1 1,
    -- 1303: x259 += einsum("ijka->kija", v.aaaa.ooov) * -1
    .add 82 (.ein [(11, [0, 1, 2, 3])] [2, 0, 1, 3]) (-1) 1,
    -- 1304: x260 = np.zeros((nocc[0], nocc[0], nocc[1], nvir[1]), dtype=types[float])
    .zeros 403 [0, 0, 4, 5],
    -- 1305: x260 += einsum("ijab,ikla->kljb", t2.abab, x259)
    .add 403 (.ein [(14, [0, 1, 2, 3]), (82, [0, 4, 5, 2])] [4, 5, 1, 3]) 1 1,
    -- 1306: x269 += einsum("ijka->ijka", x260) * -1
    .add 126 (.ein [(403, [0, 1, 2, 3])] [0, 1, 2, 3]) (-1) 1,
    -- 1307: del x260
    .del 403,
    -- 1308: x374 += einsum("wxia,ijka->xwjk", u12.aa, x259) * -1
    .add 94 (.ein [(20, [0, 1, 2, 3]), (82, [2, 4, 5, 3])] [1, 0, 4, 5]) (-1) 1,
    -- 1309: del x259
    .del 82,
    -- 1310: u12new_aa += einsum("ia,wxij->xwja", t1.aa, x374) * -1
    .add 186 (.ein [(8, [0, 1]), (94, [2, 3, 0, 4])] [3, 2, 4, 1]) (-1) 1,
    -- 1311: del x374
    .del 94,
    -- 1312: x265 += einsum("ijkl->ijkl", v.aabb.oooo)
    .add 218 (.ein [(54, [0, 1, 2, 3])] [0, 1, 2, 3]) 1 1,
    -- 1313: x266 = np.zeros((nocc[0], nocc[0], nocc[1], nvir[1]), dtype=types[float])
    .zeros 404 [0, 0, 4, 5],
    -- 1314: x266 += einsum("ia,jkil->jkla", t1.bb, x265)
    .add 404 (.ein [(18, [0, 1]), (218, [2, 3, 0, 4])] [2, 3, 4, 1]) 1 1,
    -- 1315: del x265
    .del 218,
    -- 1316: x269 += einsum("ijka->ijka", x266) * -1
    .add 126 (.ein [(404, [0, 1, 2, 3])] [0, 1, 2, 3]) (-1) 1,
    -- 1317: del x266
    .del 404,
    -- 1318: x267 += einsum("iabj->ijab", v.aabb.ovvo)
    .add 328 (.ein [(47, [0, 1, 2, 3])] [0, 3, 1, 2]) 1 1,
    -- 1319: x268 = np.zeros((nocc[0], nocc[0], nocc[1], nvir[1]), dtype=types[float])
    .zeros 405 [0, 0, 4, 5],
    -- 1320: x268 += einsum("ia,jkab->jikb", t1.aa, x267)
    .add 405 (.ein [(8, [0, 1]), (328, [2, 3, 1, 4])] [2, 0, 3, 4]) 1 1,
    -- 1321: del x267
    .del 328,
    -- 1322: x269 += einsum("ijka->ijka", x268)
    .add 126 (.ein [(405, [0, 1, 2, 3])] [0, 1, 2, 3]) 1 1,
    -- 1323: del x268
    .del 405,
    -- 1324: x269 += einsum("ijak->ijka", v.aabb.oovo)
    .add 126 (.ein [(56, [0, 1, 2, 3])] [0, 1, 3, 2]) 1 1,
    -- 1325: x270 = np.zeros((nocc[0], nocc[1], nvir[0], nvir[1]), dtype=types[float])
    .zeros 406 [0, 4, 1, 5],
    -- 1326: x270 += einsum("ia,ijkb->jkab", t1.aa, x269)
    .add 406 (.ein [(8, [0, 1]), (126, [0, 2, 3, 4])] [2, 3, 1, 4]) 1 1,
    -- 1327: del x269
    .del 126,
    -- 1328: t2new_baba += einsum("ijab->jiba", x270) * -1
    .add 184 (.ein [(406, [0, 1, 2, 3])] [1, 0, 3, 2]) (-1) 1,
    -- 1329: t2new_abab += einsum("ijab->ijab", x270) * -1
    .add 185 (.ein [(406, [0, 1, 2, 3])] [0, 1, 2, 3]) (-1) 1,
    -- 1330: del x270
    .del 406,
    -- 1331: x272 += einsum("ab->ab", f.bb.vv)
    .add 148 (.ein [(40, [0, 1])] [0, 1]) 1 1,
    -- 1332: x273 = np.zeros((nocc[0], nocc[1], nvir[0], nvir[1]), dtype=types[float])
    .zeros 407 [0, 4, 1, 5],
    -- 1333: x273 += einsum("ab,ijcb->ijca", x272, t2.abab)
    .add 407 (.ein [(148, [0, 1]), (14, [2, 3, 4, 1])] [2, 3, 4, 0]) 1 1,
    -- 1334: t2new_baba += einsum("ijab->jiba", x273)
    .add 184 (.ein [(407, [0, 1, 2, 3])] [1, 0, 3, 2]) 1 1,
    -- 1335: t2new_abab += einsum("ijab->ijab", x273)
    .add 185 (.ein [(407, [0, 1, 2, 3])] [0, 1, 2, 3]) 1 1,
    -- 1336: del x273
    .del 407,
    -- 1337: u12new_bb += einsum("ab,wxib->xwia", x272, u12.bb)
    .add 253 (.ein [(148, [0, 1]), (16, [2, 3, 4, 1])] [3, 2, 4, 0]) 1 1,
    -- 1338: del x272
    .del 148,
    -- 1339: x274 = np.zeros((nocc[0], nocc[0], nvir[0], nvir[0]), dtype=types[float])
    .zeros 408 [0, 0, 1, 1],
    -- 1340: x274 += einsum("iajb->jiab", v.aaaa.ovov) * -1
    .add 408 (.ein [(9, [0, 1, 2, 3])] [2, 0, 1, 3]) (-1) 1,
    -- 1341: x274 += einsum("iajb->jiba", v.aaaa.ovov)
    .add 408 (.ein [(9, [0, 1, 2, 3])] [2, 0, 3, 1]) 1 1,
    -- 1342: x275 = np.zeros((nvir[0], nvir[0]), dtype=types[float])
    .zeros 409 [1, 1],
    -- 1343: x275 += einsum("ijab,ijcb->ca", t2.aaaa, x274)
    .add 409 (.ein [(10, [0, 1, 2, 3]), (408, [0, 1, 4, 3])] [4, 2]) 1 1,
    -- 1344: del x274
    .del 408,
    -- 1345: x276 += einsum("ab->ba", x275) * -1
    .add 190 (.ein [(409, [0, 1])] [1, 0]) (-1) 1,
    -- 1346: x317 += einsum("ab->ba", x275) * -1
    .add 109 (.ein [(409, [0, 1])] [1, 0]) (-1) 1,
    -- 1347: del x275
    .del 409,
    -- 1348: x276 += einsum("ab->ab", f.aa.vv)
    .add 190 (.ein [(30, [0, 1])] [0, 1]) 1 1,
    -- 1349: x277 = np.zeros((nocc[0], nocc[1], nvir[0], nvir[1]), dtype=types[float])
    .zeros 410 [0, 4, 1, 5],
    -- 1350: x277 += einsum("ab,ijbc->ijac", x276, t2.abab)
    .add 410 (.ein [(190, [0, 1]), (14, [2, 3, 1, 4])] [2, 3, 0, 4]) 1 1,
    -- 1351: t2new_baba += einsum("ijab->jiba", x277)
    .add 184 (.ein [(410, [0, 1, 2, 3])] [1, 0, 3, 2]) 1 1,
    -- 1352: t2new_abab += einsum("ijab->ijab", x277)
    .add 185 (.ein [(410, [0, 1, 2, 3])] [0, 1, 2, 3]) 1 1,
    -- 1353: del x277
    .del 410,
    -- 1354: u12new_aa += einsum("ab,wxib->xwia", x276, u12.aa)
    .add 186 (.ein [(190, [0, 1]), (20, [2, 3, 4, 1])] [3, 2, 4, 0]) 1 1,
    -- 1355: del x276
    .del 190,
    -- 1356: x278 = np.zeros((nocc[0], nocc[1], nocc[1], nvir[0]), dtype=types[float])
    .zeros 411 [0, 4, 4, 1],
    -- 1357: x278 += einsum("ia,jabk->kijb", t1.bb, v.bbaa.ovvo)
    .add 411 (.ein [(18, [0, 1]), (42, [2, 1, 3, 4])] [4, 0, 2, 3]) 1 1,
    -- 1358: x287 += einsum("ijka->ikja", x278)
    .add 93 (.ein [(411, [0, 1, 2, 3])] [0, 2, 1, 3]) 1 1,
    -- 1359: del x278
    .del 411,
    -- 1360: x279 = np.zeros((nocc[0], nocc[1], nocc[1], nvir[0]), dtype=types[float])
    .zeros 412 [0, 4, 4, 1],
    -- 1361: x279 += einsum("ijab,kbca->ijkc", t2.abab, v.bbaa.ovvv)
    .add 412 (.ein [(14, [0, 1, 2, 3]), (29, [4, 3, 5, 2])] [0, 1, 4, 5]) 1 1,
    -- 1362: x287 += einsum("ijka->ikja", x279)
    .add 93 (.ein [(412, [0, 1, 2, 3])] [0, 2, 1, 3]) 1 1,
    -- 1363: del x279
    .del 412,
    -- 1364: x280 += einsum("ijka->ikja", v.bbbb.ooov)
    .add 208 (.ein [(33, [0, 1, 2, 3])] [0, 2, 1, 3]) 1 1,
    -- 1365: x280 += einsum("ijka->kija", v.bbbb.ooov) * -1
    .add 208 (.ein [(33, [0, 1, 2, 3])] [2, 0, 1, 3]) (-1) 1,
    -- 1366: x281 = np.zeros((nocc[0], nocc[1], nocc[1], nvir[0]), dtype=types[float])
    .zeros 413 [0, 4, 4, 1],
    -- 1367: x281 += einsum("ijab,jklb->ikla", t2.abab, x280)
    .add 413 (.ein [(14, [0, 1, 2, 3]), (208, [1, 4, 5, 3])] [0, 4, 5, 2]) 1 1,
    -- 1368: x287 += einsum("ijka->ijka", x281) * -1
    .add 93 (.ein [(413, [0, 1, 2, 3])] [0, 1, 2, 3]) (-1) 1,
    -- 1369: del x281
    .del 413,
    -- 1370: x413 += einsum("wxia,ijka->xwjk", u12.bb, x280) * -1
    .add 161 (.ein [(16, [0, 1, 2, 3]), (208, [2, 4, 5, 3])] [1, 0, 4, 5]) (-1) 1,
    -- 1371: del x280
    .del 208,
    -- 1372: u12new_bb += einsum("ia,wxij->xwja", t1.bb, x413) * -1
    .add 253 (.ein [(18, [0, 1]), (161, [2, 3, 0, 4])] [3, 2, 4, 1]) (-1) 1,
    -- 1373: del x413
    .del 161,
    -- 1374: x285 += einsum("ijab->ijab", v.bbaa.oovv)
    .add 399 (.ein [(55, [0, 1, 2, 3])] [0, 1, 2, 3]) 1 1,
    -- 1375: x286 = np.zeros((nocc[0], nocc[1], nocc[1], nvir[0]), dtype=types[float])
    .zeros 414 [0, 4, 4, 1],
    -- 1376: x286 += einsum("ia,jkba->ijkb", t1.aa, x285)
    .add 414 (.ein [(8, [0, 1]), (399, [2, 3, 4, 1])] [0, 2, 3, 4]) 1 1,
    -- 1377: del x285
    .del 399,
    -- 1378: x287 += einsum("ijka->ijka", x286)
    .add 93 (.ein [(414, [0, 1, 2, 3])] [0, 1, 2, 3]) 1 1,
    -- 1379: del x286
    .del 414,
    -- 1380: x287 += einsum("ijak->kija", v.bbaa.oovo)
    .add 93 (.ein [(57, [0, 1, 2, 3])] [3, 0, 1, 2]) 1 1,
    -- 1381: x288 = np.zeros((nocc[0], nocc[1], nvir[0], nvir[1]), dtype=types[float])
    .zeros 415 [0, 4, 1, 5],
    -- 1382: x288 += einsum("ia,jikb->jkba", t1.bb, x287)
    .add 415 (.ein [(18, [0, 1]), (93, [2, 0, 3, 4])] [2, 3, 4, 1]) 1 1,
    -- 1383: del x287
    .del 93,
    -- 1384: t2new_baba += einsum("ijab->jiba", x288) * -1
    .add 184 (.ein [(415, [0, 1, 2, 3])] [1, 0, 3, 2]) (-1) 1,
    -- 1385: t2new_abab += einsum("ijab->ijab", x288) * -1
    .add 185 (.ein [(415, [0, 1, 2, 3])] [0, 1, 2, 3]) (-1) 1,
    -- 1386: del x288
    .del 415,
    -- 1387: x293 = np.zeros((nocc[1], nvir[0], nvir[0], nvir[1]), dtype=types[float])
    .zeros 416 [4, 1, 1, 5],
    -- 1388: x293 += einsum("ia,bcda->ibcd", t1.bb, v.aabb.vvvv)
    .add 416 (.ein [(18, [0, 1]), (51, [2, 3, 4, 1])] [0, 2, 3, 4]) 1 1,
    -- 1389: x294 = np.zeros((nocc[1], nvir[0], nvir[0], nvir[1]), dtype=types[float])
    .zeros 417 [4, 1, 1, 5],
    -- 1390: x294 += einsum("iabc->iabc", x293)
    .add 417 (.ein [(416, [0, 1, 2, 3])] [0, 1, 2, 3]) 1 1,
    -- 1391: del x293
    .del 416,
    -- 1392: x294 += einsum("abci->iabc", v.aabb.vvvo)
    .add 417 (.ein [(58, [0, 1, 2, 3])] [3, 0, 1, 2]) 1 1,
    -- 1393: x295 = np.zeros((nocc[0], nocc[1], nvir[0], nvir[1]), dtype=types[float])
    .zeros 418 [0, 4, 1, 5],
    -- 1394: x295 += einsum("ia,jbac->ijbc", t1.aa, x294)
    .add 418 (.ein [(8, [0, 1]), (417, [2, 3, 1, 4])] [0, 2, 3, 4]) 1 1,
    -- 1395: del x294
    .del 417,
    -- 1396: t2new_baba += einsum("ijab->jiba", x295)
    .add 184 (.ein [(418, [0, 1, 2, 3])] [1, 0, 3, 2]) 1 1,
    -- 1397: t2new_abab += einsum("ijab->ijab", x295)
    .add 185 (.ein [(418, [0, 1, 2, 3])] [0, 1, 2, 3]) 1 1,
    -- 1398: del x295
    .del 418,
    -- 1399: x296 += einsum("ia->ia", f.bb.ov)
    .add 133 (.ein [(25, [0, 1])] [0, 1]) 1 1,
    -- 1400: s1new += einsum("ia,wia->w", x296, u11.bb)
    .add 198 (.ein [(133, [0, 1]), (24, [2, 0, 1])] [2]) 1 1,
    -- 1401: s2new += einsum("ia,wxia->xw", x296, u12.bb)
    .add 276 (.ein [(133, [0, 1]), (16, [2, 3, 0, 1])] [3, 2]) 1 1,
    -- 1402: del x296
    .del 133,
    -- 1403: x297 += einsum("ia->ia", f.aa.ov)
    .add 98 (.ein [(21, [0, 1])] [0, 1]) 1 1,
    -- 1404: s1new += einsum("ia,wia->w", x297, u11.aa)
    .add 198 (.ein [(98, [0, 1]), (19, [2, 0, 1])] [2]) 1 1,
    -- 1405: s2new += einsum("ia,wxia->xw", x297, u12.aa)
    .add 276 (.ein [(98, [0, 1]), (20, [2, 3, 0, 1])] [3, 2]) 1 1,
    -- 1406: del x297
    .del 98,
    -- 1407: x298 = np.zeros((nbos, nbos), dtype=types[float])
    .zeros 419 [2, 2],
    -- 1408: x298 += einsum("wia,xia->wx", gc.aa.bov, u11.aa)
    .add 419 (.ein [(66, [0, 1, 2]), (19, [3, 1, 2])] [0, 3]) 1 1,
    -- 1409: x306 = np.zeros((nbos, nbos), dtype=types[float])
    .zeros 420 [2, 2],
    -- 1410: x306 += einsum("wx->wx", x298)
    .add 420 (.ein [(419, [0, 1])] [0, 1]) 1 1,
    -- 1411: del x298
    .del 419,
    -- 1412: x299 = np.zeros((nbos, nocc[1], nvir[1]), dtype=types[float])
    .zeros 421 [2, 4, 5],
    -- 1413: x299 += einsum("wia,iajb->wjb", u11.aa, v.aabb.ovov)
    .add 421 (.ein [(19, [0, 1, 2]), (13, [1, 2, 3, 4])] [0, 3, 4]) 1 1,
    -- 1414: x300 = np.zeros((nbos, nocc[1], nvir[1]), dtype=types[float])
    .zeros 422 [2, 4, 5],
    -- 1415: x300 += einsum("wia->wia", x299)
    .add 422 (.ein [(421, [0, 1, 2])] [0, 1, 2]) 1 1,
    -- 1416: x315 += einsum("wia->wia", x299)
    .add 150 (.ein [(421, [0, 1, 2])] [0, 1, 2]) 1 1,
    -- 1417: x400 = np.zeros((nbos, nocc[1], nocc[1]), dtype=types[float])
    .zeros 423 [2, 4, 4],
    -- 1418: x400 += einsum("ia,wja->wij", t1.bb, x299)
    .add 423 (.ein [(18, [0, 1]), (421, [2, 3, 1])] [2, 0, 3]) 1 1,
    -- 1419: x402 += einsum("wij->wij", x400)
    .add 146 (.ein [(423, [0, 1, 2])] [0, 1, 2]) 1 1,
    -- 1420: del x400
    .del 423,
    -- 1421: x403 = np.zeros((nbos, nbos, nocc[1], nvir[1]), dtype=types[float])
    .zeros 424 [2, 2, 4, 5],
    -- 1422: x403 += einsum("wia,xji->xwja", u11.bb, x402)
    .add 424 (.ein [(24, [0, 1, 2]), (146, [3, 4, 1])] [3, 0, 4, 2]) 1 1,
    -- 1423: del x402
    .del 146,
    -- 1424: x410 += einsum("wxia->wxia", x403)
    .add 155 (.ein [(424, [0, 1, 2, 3])] [0, 1, 2, 3]) 1 1,
    -- 1425: del x403
    .del 424,
    -- 1426: x404 = np.zeros((nbos, nbos, nocc[1], nocc[1]), dtype=types[float])
    .zeros 425 [2, 2, 4, 4],
    -- 1427: x404 += einsum("wia,xja->xwij", u11.bb, x299)
    .add 425 (.ein [(24, [0, 1, 2]), (421, [3, 4, 2])] [3, 0, 1, 4]) 1 1,
    -- 1428: del x299
    .del 421,
    -- 1429: x406 += einsum("wxij->wxij", x404)
    .add 152 (.ein [(425, [0, 1, 2, 3])] [0, 1, 2, 3]) 1 1,
    -- 1430: del x404
    .del 425,
    -- 1431: x407 = np.zeros((nbos, nbos, nocc[1], nvir[1]), dtype=types[float])
    .zeros 426 [2, 2, 4, 5],
    -- 1432: x407 += einsum("ia,wxji->wxja", t1.bb, x406)
    .add 426 (.ein [(18, [0, 1]), (152, [2, 3, 4, 0])] [2, 3, 4, 1]) 1 1,
    -- 1433: del x406
    .del 152,
    -- 1434: x410 += einsum("wxia->wxia", x407)
    .add 155 (.ein [(426, [0, 1, 2, 3])] [0, 1, 2, 3]) 1 1,
    -- 1435: del x407
    .del 426,
    -- 1436: u12new_bb += einsum("wxia->wxia", x410) * -1
    .add 253 (.ein [(155, [0, 1, 2, 3])] [0, 1, 2, 3]) (-1) 1,
    -- 1437: u12new_bb += einsum("wxia->xwia", x410) * -1
    .add 253 (.ein [(155, [0, 1, 2, 3])] [1, 0, 2, 3]) (-1) 1,
    -- 1438: del x410
    .del 155,
    -- 1439: x300 += einsum("wia->wia", gc.bb.bov)
    .add 422 (.ein [(70, [0, 1, 2])] [0, 1, 2]) 1 1,
    -- 1440: x301 = np.zeros((nbos, nbos), dtype=types[float])
    .zeros 427 [2, 2],
    -- 1441: x301 += einsum("wia,xia->xw", u11.bb, x300)
    .add 427 (.ein [(24, [0, 1, 2]), (422, [3, 1, 2])] [3, 0]) 1 1,
    -- 1442: del x300
    .del 422,
    -- 1443: x306 += einsum("wx->wx", x301)
    .add 420 (.ein [(427, [0, 1])] [0, 1]) 1 1,
    -- 1444: del x301
    .del 427,
    -- 1445: x302 = np.zeros((nbos, nbos), dtype=types[float])
    .zeros 428 [2, 2],
    -- 1446: x302 += einsum("wia,xia->wx", g.aa.bov, u11.aa)
    .add 428 (.ein [(2, [0, 1, 2]), (19, [3, 1, 2])] [0, 3]) 1 1,
    -- 1447: x304 = np.zeros((nbos, nbos), dtype=types[float])
    .zeros 429 [2, 2],
    -- 1448: x304 += einsum("wx->wx", x302)
    .add 429 (.ein [(428, [0, 1])] [0, 1]) 1 1,
    -- 1449: x357 = np.zeros((nbos, nbos), dtype=types[float])
    .zeros 430 [2, 2],
    -- 1450: x357 += einsum("wx->wx", x302)
    .add 430 (.ein [(428, [0, 1])] [0, 1]) 1 1,
    -- 1451: del x302
    .del 428,
    -- 1452: x303 = np.zeros((nbos, nbos), dtype=types[float])
    .zeros 431 [2, 2],
    -- 1453: x303 += einsum("wia,xia->wx", g.bb.bov, u11.bb)
    .add 431 (.ein [(6, [0, 1, 2]), (24, [3, 1, 2])] [0, 3]) 1 1,
    -- 1454: x304 += einsum("wx->wx", x303)
    .add 429 (.ein [(431, [0, 1])] [0, 1]) 1 1,
    -- 1455: x357 += einsum("wx->wx", x303)
    .add 430 (.ein [(431, [0, 1])] [0, 1]) 1 1,
    -- 1456: del x303
    .del 431,
    -- 1457: x358 = np.zeros((nbos, nbos, nocc[0], nvir[0]), dtype=types[float])
    .zeros 432 [2, 2, 0, 1],
    -- 1458: x358 += einsum("wx,wyia->yxia", x357, u12.aa)
    .add 432 (.ein [(430, [0, 1]), (20, [0, 2, 3, 4])] [2, 1, 3, 4]) 1 1,
    -- 1459: x359 = np.zeros((nbos, nbos, nocc[0], nvir[0]), dtype=types[float])
    .zeros 433 [2, 2, 0, 1],
    -- 1460: x359 -= einsum("wxia->xwia", x358)
    .add 433 (.ein [(432, [0, 1, 2, 3])] [1, 0, 2, 3]) (-1) 1,
    -- 1461: del x358
    .del 432,
    -- 1462: x398 = np.zeros((nbos, nbos, nocc[1], nvir[1]), dtype=types[float])
    .zeros 434 [2, 2, 4, 5],
    -- 1463: x398 += einsum("wx,wyia->yxia", x357, u12.bb)
    .add 434 (.ein [(430, [0, 1]), (16, [0, 2, 3, 4])] [2, 1, 3, 4]) 1 1,
    -- 1464: del x357
    .del 430,
    -- 1465: x399 = np.zeros((nbos, nbos, nocc[1], nvir[1]), dtype=types[float])
    .zeros 435 [2, 2, 4, 5],
    -- 1466: x399 -= einsum("wxia->xwia", x398)
    .add 435 (.ein [(434, [0, 1, 2, 3])] [1, 0, 2, 3]) (-1) 1,
    -- 1467: del x398
    .del 434,
    -- 1468: x304 += einsum("wx->wx", w)
    .add 429 (.ein [(59, [0, 1])] [0, 1]) 1 1,
    -- 1469: x305 = np.zeros((nbos, nbos), dtype=types[float])
    .zeros 436 [2, 2],
    -- 1470: x305 += einsum("wx,wy->xy", s2, x304)
    .add 436 (.ein [(32, [0, 1]), (429, [0, 2])] [1, 2]) 1 1,
    -- 1471: x306 += einsum("wx->wx", x305)
    .add 420 (.ein [(436, [0, 1])] [0, 1]) 1 1,
    -- 1472: del x305
    .del 436,
    -- 1473: s2new += einsum("wx->wx", x306)
    .add 276 (.ein [(420, [0, 1])] [0, 1]) 1 1,
    -- 1474: s2new += einsum("wx->xw", x306)
    .add 276 (.ein [(420, [0, 1])] [1, 0]) 1 1,
    -- 1475: del x306
    .del 420,
    -- 1476: u11new_aa += einsum("wx,wia->xia", x304, u11.aa)
    .add 165 (.ein [(429, [0, 1]), (19, [0, 2, 3])] [1, 2, 3]) 1 1,
    -- 1477: u11new_bb += einsum("wx,wia->xia", x304, u11.bb)
    .add 199 (.ein [(429, [0, 1]), (24, [0, 2, 3])] [1, 2, 3]) 1 1,
    -- 1478: del x304
    .del 429,
    -- 1479: x309 = np.zeros((nbos, nocc[0], nvir[0]), dtype=types[float])
    .zeros 437 [2, 0, 1],
    -- 1480: x309 += einsum("wx,xia->wia", s2, g.aa.bov)
    .add 437 (.ein [(32, [0, 1]), (2, [1, 2, 3])] [0, 2, 3]) 1 1,
    -- 1481: x312 += einsum("wia->wia", x309)
    .add 120 (.ein [(437, [0, 1, 2])] [0, 1, 2]) 1 1,
    -- 1482: x345 = np.zeros((nbos, nocc[0], nvir[0]), dtype=types[float])
    .zeros 438 [2, 0, 1],
    -- 1483: x345 += einsum("wia->wia", x309)
    .add 438 (.ein [(437, [0, 1, 2])] [0, 1, 2]) 1 1,
    -- 1484: del x309
    .del 437,
    -- 1485: x310 = np.zeros((nbos, nocc[0], nvir[0]), dtype=types[float])
    .zeros 439 [2, 0, 1],
    -- 1486: x310 += einsum("wia,jbia->wjb", u11.bb, v.aabb.ovov)
    .add 439 (.ein [(24, [0, 1, 2]), (13, [3, 4, 1, 2])] [0, 3, 4]) 1 1,
    -- 1487: x312 += einsum("wia->wia", x310)
    .add 120 (.ein [(439, [0, 1, 2])] [0, 1, 2]) 1 1,
    -- 1488: x360 += einsum("wia->wia", x310)
    .add 121 (.ein [(439, [0, 1, 2])] [0, 1, 2]) 1 1,
    -- 1489: del x310
    .del 439,
    -- 1490: x361 = np.zeros((nbos, nvir[0], nvir[0]), dtype=types[float])
    .zeros 440 [2, 1, 1],
    -- 1491: x361 += einsum("ia,wib->wba", t1.aa, x360)
    .add 440 (.ein [(8, [0, 1]), (121, [2, 0, 3])] [2, 3, 1]) 1 1,
    -- 1492: x362 = np.zeros((nbos, nbos, nocc[0], nvir[0]), dtype=types[float])
    .zeros 441 [2, 2, 0, 1],
    -- 1493: x362 += einsum("wia,xab->xwib", u11.aa, x361)
    .add 441 (.ein [(19, [0, 1, 2]), (440, [3, 2, 4])] [3, 0, 1, 4]) 1 1,
    -- 1494: del x361
    .del 440,
    -- 1495: x367 += einsum("wxia->xwia", x362)
    .add 112 (.ein [(441, [0, 1, 2, 3])] [1, 0, 2, 3]) 1 1,
    -- 1496: del x362
    .del 441,
    -- 1497: x363 = np.zeros((nbos, nocc[0], nocc[0]), dtype=types[float])
    .zeros 442 [2, 0, 0],
    -- 1498: x363 += einsum("ia,wja->wji", t1.aa, x360)
    .add 442 (.ein [(8, [0, 1]), (121, [2, 3, 1])] [2, 3, 0]) 1 1,
    -- 1499: del x360
    .del 121,
    -- 1500: x364 = np.zeros((nbos, nbos, nocc[0], nvir[0]), dtype=types[float])
    .zeros 443 [2, 2, 0, 1],
    -- 1501: x364 += einsum("wia,xij->xwja", u11.aa, x363)
    .add 443 (.ein [(19, [0, 1, 2]), (442, [3, 1, 4])] [3, 0, 4, 2]) 1 1,
    -- 1502: del x363
    .del 442,
    -- 1503: x367 += einsum("wxia->xwia", x364)
    .add 112 (.ein [(443, [0, 1, 2, 3])] [1, 0, 2, 3]) 1 1,
    -- 1504: del x364
    .del 443,
    -- 1505: u12new_aa += einsum("wxia->wxia", x367) * -1
    .add 186 (.ein [(112, [0, 1, 2, 3])] [0, 1, 2, 3]) (-1) 1,
    -- 1506: u12new_aa += einsum("wxia->xwia", x367) * -1
    .add 186 (.ein [(112, [0, 1, 2, 3])] [1, 0, 2, 3]) (-1) 1,
    -- 1507: del x367
    .del 112,
    -- 1508: x312 += einsum("wia->wia", gc.aa.bov)
    .add 120 (.ein [(66, [0, 1, 2])] [0, 1, 2]) 1 1,
    -- 1509: x322 += einsum("ia,wja->wji", t1.aa, x312)
    .add 182 (.ein [(8, [0, 1]), (120, [2, 3, 1])] [2, 3, 0]) 1 1,
    -- 1510: u11new_aa += einsum("wia,ijab->wjb", x312, x10) * -1
    .add 165 (.ein [(120, [0, 1, 2]), (128, [1, 3, 2, 4])] [0, 3, 4]) (-1) 1,
    -- 1511: u11new_bb += einsum("wia,ijab->wjb", x312, t2.abab)
    .add 199 (.ein [(120, [0, 1, 2]), (14, [1, 3, 2, 4])] [0, 3, 4]) 1 1,
    -- 1512: del x312
    .del 120,
    -- 1513: x313 = np.zeros((nbos, nocc[1], nvir[1]), dtype=types[float])
    .zeros 444 [2, 4, 5],
    -- 1514: x313 += einsum("wx,xia->wia", s2, g.bb.bov)
    .add 444 (.ein [(32, [0, 1]), (6, [1, 2, 3])] [0, 2, 3]) 1 1,
    -- 1515: x315 += einsum("wia->wia", x313)
    .add 150 (.ein [(444, [0, 1, 2])] [0, 1, 2]) 1 1,
    -- 1516: x381 = np.zeros((nbos, nocc[1], nvir[1]), dtype=types[float])
    .zeros 445 [2, 4, 5],
    -- 1517: x381 += einsum("wia->wia", x313)
    .add 445 (.ein [(444, [0, 1, 2])] [0, 1, 2]) 1 1,
    -- 1518: del x313
    .del 444,
    -- 1519: x315 += einsum("wia->wia", gc.bb.bov)
    .add 150 (.ein [(70, [0, 1, 2])] [0, 1, 2]) 1 1,
    -- 1520: x333 += einsum("ia,wja->wji", t1.bb, x315)
    .add 251 (.ein [(18, [0, 1]), (150, [2, 3, 1])] [2, 3, 0]) 1 1,
    -- 1521: u11new_aa += einsum("wia,jiba->wjb", x315, t2.abab)
    .add 165 (.ein [(150, [0, 1, 2]), (14, [3, 1, 4, 2])] [0, 3, 4]) 1 1,
    -- 1522: u11new_bb += einsum("wia,ijab->wjb", x315, x164) * -1
    .add 199 (.ein [(150, [0, 1, 2]), (340, [1, 3, 2, 4])] [0, 3, 4]) (-1) 1,
    -- 1523: del x315
    .del 150,
    -- 1524: del x164
    .del 340,
    -- 1525: x317 += einsum("ab->ab", f.aa.vv)
    .add 109 (.ein [(30, [0, 1])] [0, 1]) 1 1,
    -- 1526: u11new_aa += einsum("ab,wib->wia", x317, u11.aa)
    .add 165 (.ein [(109, [0, 1]), (19, [2, 3, 1])] [2, 3, 0]) 1 1,
    -- 1527: del x317
    .del 109,
    -- 1528: x318 = np.zeros((nbos, nocc[0], nocc[0]), dtype=types[float])
    .zeros 446 [2, 0, 0],
    -- 1529: x318 += einsum("wx,xij->wij", s2, g.aa.boo)
    .add 446 (.ein [(32, [0, 1]), (0, [1, 2, 3])] [0, 2, 3]) 1 1,
    -- 1530: x322 += einsum("wij->wij", x318)
    .add 182 (.ein [(446, [0, 1, 2])] [0, 1, 2]) 1 1,
    -- 1531: x347 = np.zeros((nbos, nocc[0], nocc[0]), dtype=types[float])
    .zeros 447 [2, 0, 0],
    -- 1532: x347 += einsum("wij->wij", x318)
    .add 447 (.ein [(446, [0, 1, 2])] [0, 1, 2]) 1 1,
    -- 1533: del x318
    .del 446,
    -- 1534: x319 = np.zeros((nbos, nocc[0], nocc[0]), dtype=types[float])
    .zeros 448 [2, 0, 0],
    -- 1535: x319 += einsum("wia,xwja->xij", g.aa.bov, u12.aa)
    .add 448 (.ein [(2, [0, 1, 2]), (20, [3, 0, 4, 2])] [3, 1, 4]) 1 1,
    -- 1536: x322 += einsum("wij->wij", x319)
    .add 182 (.ein [(448, [0, 1, 2])] [0, 1, 2]) 1 1,
    -- 1537: x351 = np.zeros((nbos, nocc[0], nocc[0]), dtype=types[float])
    .zeros 449 [2, 0, 0],
    -- 1538: x351 += einsum("wij->wij", x319)
    .add 449 (.ein [(448, [0, 1, 2])] [0, 1, 2]) 1 1,
    -- 1539: del x319
    .del 448,
    -- 1540: x320 = np.zeros((nbos, nocc[0], nocc[0]), dtype=types[float])
    .zeros 450 [2, 0, 0],
    -- 1541: x320 += einsum("wia,jkia->wjk", u11.bb, v.aabb.ooov)
    .add 450 (.ein [(24, [0, 1, 2]), (15, [3, 4, 1, 2])] [0, 3, 4]) 1 1,
    -- 1542: x322 += einsum("wij->wij", x320)
    .add 182 (.ein [(450, [0, 1, 2])] [0, 1, 2]) 1 1,
    -- 1543: x351 += einsum("wij->wij", x320)
    .add 449 (.ein [(450, [0, 1, 2])] [0, 1, 2]) 1 1,
    -- 1544: del x320
    .del 450,
    -- 1545: x321 += einsum("ia->ia", f.aa.ov)
    .add 99 (.ein [(21, [0, 1])] [0, 1]) 1 1,
    -- 1546: x322 += einsum("ia,wja->wij", x321, u11.aa)
    .add 182 (.ein [(99, [0, 1]), (19, [2, 3, 1])] [2, 0, 3]) 1 1,
    -- 1547: del x321
    .del 99,
    -- 1548: x322 += einsum("wij->wij", gc.aa.boo)
    .add 182 (.ein [(65, [0, 1, 2])] [0, 1, 2]) 1 1,
    -- 1549: u11new_aa += einsum("ia,wij->wja", t1.aa, x322) * -1
    .add 165 (.ein [(8, [0, 1]), (182, [2, 0, 3])] [2, 3, 1]) (-1) 1,
    -- 1550: del x322
    .del 182,
    -- 1551: x323 = np.zeros((nbos, nvir[0], nvir[0]), dtype=types[float])
    .zeros 451 [2, 1, 1],
    -- 1552: x323 += einsum("wx,xab->wab", s2, g.aa.bvv)
    .add 451 (.ein [(32, [0, 1]), (3, [1, 2, 3])] [0, 2, 3]) 1 1,
    -- 1553: x326 = np.zeros((nbos, nvir[0], nvir[0]), dtype=types[float])
    .zeros 452 [2, 1, 1],
    -- 1554: x326 += einsum("wab->wab", x323)
    .add 452 (.ein [(451, [0, 1, 2])] [0, 1, 2]) 1 1,
    -- 1555: x353 = np.zeros((nbos, nvir[0], nvir[0]), dtype=types[float])
    .zeros 453 [2, 1, 1],
    -- 1556: x353 += einsum("wab->wab", x323)
    .add 453 (.ein [(451, [0, 1, 2])] [0, 1, 2]) 1 1,
    -- 1557: del x323
    .del 451,
    -- 1558: x324 = np.zeros((nbos, nvir[0], nvir[0]), dtype=types[float])
    .zeros 454 [2, 1, 1],
    -- 1559: x324 += einsum("wia,iabc->wbc", u11.bb, v.bbaa.ovvv)
    .add 454 (.ein [(24, [0, 1, 2]), (29, [1, 2, 3, 4])] [0, 3, 4]) 1 1,
    -- 1560: x326 += einsum("wab->wab", x324)
    .add 452 (.ein [(454, [0, 1, 2])] [0, 1, 2]) 1 1,
    -- 1561: x341 -= einsum("wab->wba", x324)
    .add 386 (.ein [(454, [0, 1, 2])] [0, 2, 1]) (-1) 1,
    -- 1562: del x324
    .del 454,
    -- 1563: x325 = np.zeros((nocc[0], nvir[0], nvir[0], nvir[0]), dtype=types[float])
    .zeros 455 [0, 1, 1, 1],
    -- 1564: x325 += einsum("iabc->ibac", v.aaaa.ovvv)
    .add 455 (.ein [(12, [0, 1, 2, 3])] [0, 2, 1, 3]) 1 1,
    -- 1565: x325 -= einsum("iabc->ibca", v.aaaa.ovvv)
    .add 455 (.ein [(12, [0, 1, 2, 3])] [0, 2, 3, 1]) (-1) 1,
    -- 1566: x326 -= einsum("wia,ibca->wbc", u11.aa, x325)
    .add 452 (.ein [(19, [0, 1, 2]), (455, [1, 3, 4, 2])] [0, 3, 4]) (-1) 1,
    -- 1567: del x325
    .del 455,
    -- 1568: x326 += einsum("wab->wab", gc.aa.bvv)
    .add 452 (.ein [(68, [0, 1, 2])] [0, 1, 2]) 1 1,
    -- 1569: u11new_aa += einsum("ia,wba->wib", t1.aa, x326)
    .add 165 (.ein [(8, [0, 1]), (452, [2, 3, 1])] [2, 0, 3]) 1 1,
    -- 1570: del x326
    .del 452,
    -- 1571: x328 += einsum("ab->ab", f.bb.vv)
    .add 144 (.ein [(40, [0, 1])] [0, 1]) 1 1,
    -- 1572: u11new_bb += einsum("ab,wib->wia", x328, u11.bb)
    .add 199 (.ein [(144, [0, 1]), (24, [2, 3, 1])] [2, 3, 0]) 1 1,
    -- 1573: del x328
    .del 144,
    -- 1574: x329 = np.zeros((nbos, nocc[1], nocc[1]), dtype=types[float])
    .zeros 456 [2, 4, 4],
    -- 1575: x329 += einsum("wx,xij->wij", s2, g.bb.boo)
    .add 456 (.ein [(32, [0, 1]), (4, [1, 2, 3])] [0, 2, 3]) 1 1,
    -- 1576: x333 += einsum("wij->wij", x329)
    .add 251 (.ein [(456, [0, 1, 2])] [0, 1, 2]) 1 1,
    -- 1577: x383 = np.zeros((nbos, nocc[1], nocc[1]), dtype=types[float])
    .zeros 457 [2, 4, 4],
    -- 1578: x383 += einsum("wij->wij", x329)
    .add 457 (.ein [(456, [0, 1, 2])] [0, 1, 2]) 1 1,
    -- 1579: del x329
    .del 456,
    -- 1580: x330 = np.zeros((nbos, nocc[1], nocc[1]), dtype=types[float])
    .zeros 458 [2, 4, 4],
    -- 1581: x330 += einsum("wia,xwja->xij", g.bb.bov, u12.bb)
    .add 458 (.ein [(6, [0, 1, 2]), (16, [3, 0, 4, 2])] [3, 1, 4]) 1 1,
    -- 1582: x333 += einsum("wij->wij", x330)
    .add 251 (.ein [(458, [0, 1, 2])] [0, 1, 2]) 1 1,
    -- 1583: x394 = np.zeros((nbos, nocc[1], nocc[1]), dtype=types[float])
    .zeros 459 [2, 4, 4],
    -- 1584: x394 += einsum("wij->wij", x330)
    .add 459 (.ein [(458, [0, 1, 2])] [0, 1, 2]) 1 1,
    -- 1585: del x330
    .del 458,
    -- 1586: x331 = np.zeros((nbos, nocc[1], nocc[1]), dtype=types[float])
    .zeros 460 [2, 4, 4],
    -- 1587: x331 += einsum("wia,iajk->wjk", u11.aa, v.aabb.ovoo)
    .add 460 (.ein [(19, [0, 1, 2]), (35, [1, 2, 3, 4])] [0, 3, 4]) 1 1,
    -- 1588: x333 += einsum("wij->wij", x331)
    .add 251 (.ein [(460, [0, 1, 2])] [0, 1, 2]) 1 1,
    -- 1589: x383 += einsum("wij->wij", x331)
    .add 457 (.ein [(460, [0, 1, 2])] [0, 1, 2]) 1 1,
    -- 1590: del x331
    .del 460,
    -- 1591: x332 += einsum("ia->ia", f.bb.ov)
    .add 134 (.ein [(25, [0, 1])] [0, 1]) 1 1,
    -- 1592: x333 += einsum("ia,wja->wij", x332, u11.bb)
    .add 251 (.ein [(134, [0, 1]), (24, [2, 3, 1])] [2, 0, 3]) 1 1,
    -- 1593: del x332
    .del 134,
    -- 1594: x333 += einsum("wij->wij", gc.bb.boo)
    .add 251 (.ein [(69, [0, 1, 2])] [0, 1, 2]) 1 1,
    -- 1595: u11new_bb += einsum("ia,wij->wja", t1.bb, x333) * -1
    .add 199 (.ein [(18, [0, 1]), (251, [2, 0, 3])] [2, 3, 1]) (-1) 1,
    -- 1596: del x333
    .del 251,
    -- 1597: x334 = np.zeros((nbos, nvir[1], nvir[1]), dtype=types[float])
    .zeros 461 [2, 5, 5],
    -- 1598: x334 += einsum("wx,xab->wab", s2, g.bb.bvv)
    .add 461 (.ein [(32, [0, 1]), (7, [1, 2, 3])] [0, 2, 3]) 1 1,
    -- 1599: x337 = np.zeros((nbos, nvir[1], nvir[1]), dtype=types[float])
    .zeros 462 [2, 5, 5],
    -- 1600: x337 += einsum("wab->wab", x334)
    .add 462 (.ein [(461, [0, 1, 2])] [0, 1, 2]) 1 1,
    -- 1601: x385 = np.zeros((nbos, nvir[1], nvir[1]), dtype=types[float])
    .zeros 463 [2, 5, 5],
    -- 1602: x385 += einsum("wab->wab", x334)
    .add 463 (.ein [(461, [0, 1, 2])] [0, 1, 2]) 1 1,
    -- 1603: del x334
    .del 461,
    -- 1604: x335 = np.zeros((nbos, nvir[1], nvir[1]), dtype=types[float])
    .zeros 464 [2, 5, 5],
    -- 1605: x335 += einsum("wia,iabc->wbc", u11.aa, v.aabb.ovvv)
    .add 464 (.ein [(19, [0, 1, 2]), (39, [1, 2, 3, 4])] [0, 3, 4]) 1 1,
    -- 1606: x337 += einsum("wab->wab", x335)
    .add 462 (.ein [(464, [0, 1, 2])] [0, 1, 2]) 1 1,
    -- 1607: x385 += einsum("wab->wab", x335)
    .add 463 (.ein [(464, [0, 1, 2])] [0, 1, 2]) 1 1,
    -- 1608: del x335
    .del 464,
    -- 1609: x336 = np.zeros((nocc[1], nvir[1], nvir[1], nvir[1]), dtype=types[float])
    .zeros 465 [4, 5, 5, 5],
    -- 1610: x336 -= einsum("iabc->ibac", v.bbbb.ovvv)
    .add 465 (.ein [(34, [0, 1, 2, 3])] [0, 2, 1, 3]) (-1) 1,
    -- 1611: x336 += einsum("iabc->ibca", v.bbbb.ovvv)
    .add 465 (.ein [(34, [0, 1, 2, 3])] [0, 2, 3, 1]) 1 1,
    -- 1612: x337 -= einsum("wia,ibac->wbc", u11.bb, x336)
    .add 462 (.ein [(24, [0, 1, 2]), (465, [1, 3, 2, 4])] [0, 3, 4]) (-1) 1,
    -- 1613: del x336
    .del 465,
    -- 1614: x337 += einsum("wab->wab", gc.bb.bvv)
    .add 462 (.ein [(72, [0, 1, 2])] [0, 1, 2]) 1 1,
    -- 1615: u11new_bb += einsum("ia,wba->wib", t1.bb, x337)
    .add 199 (.ein [(18, [0, 1]), (462, [2, 3, 1])] [2, 0, 3]) 1 1,
    -- 1616: del x337
    .del 462,
    -- 1617: x338 = np.zeros((nbos, nbos, nocc[0], nvir[0]), dtype=types[float])
    .zeros 466 [2, 2, 0, 1],
    -- 1618: x338 += einsum("wx,ywia->yxia", w, u12.aa)
    .add 466 (.ein [(59, [0, 1]), (20, [2, 0, 3, 4])] [2, 1, 3, 4]) 1 1,
    -- 1619: x359 -= einsum("wxia->wxia", x338)
    .add 433 (.ein [(466, [0, 1, 2, 3])] [0, 1, 2, 3]) (-1) 1,
    -- 1620: del x338
    .del 466,
    -- 1621: x339 = np.zeros((nbos, nvir[0], nvir[0]), dtype=types[float])
    .zeros 467 [2, 1, 1],
    -- 1622: x339 += einsum("wia,xwib->xab", g.aa.bov, u12.aa)
    .add 467 (.ein [(2, [0, 1, 2]), (20, [3, 0, 1, 4])] [3, 2, 4]) 1 1,
    -- 1623: x341 += einsum("wab->wab", x339)
    .add 386 (.ein [(467, [0, 1, 2])] [0, 1, 2]) 1 1,
    -- 1624: del x339
    .del 467,
    -- 1625: x342 = np.zeros((nbos, nbos, nocc[0], nvir[0]), dtype=types[float])
    .zeros 468 [2, 2, 0, 1],
    -- 1626: x342 += einsum("wia,xab->xwib", u11.aa, x341)
    .add 468 (.ein [(19, [0, 1, 2]), (386, [3, 2, 4])] [3, 0, 1, 4]) 1 1,
    -- 1627: del x341
    .del 386,
    -- 1628: x359 += einsum("wxia->xwia", x342)
    .add 433 (.ein [(468, [0, 1, 2, 3])] [1, 0, 2, 3]) 1 1,
    -- 1629: del x342
    .del 468,
    -- 1630: x343 += einsum("ia->ia", f.aa.ov)
    .add 100 (.ein [(21, [0, 1])] [0, 1]) 1 1,
    -- 1631: x344 = np.zeros((nbos, nocc[0], nocc[0]), dtype=types[float])
    .zeros 469 [2, 0, 0],
    -- 1632: x344 += einsum("ia,wja->wij", x343, u11.aa)
    .add 469 (.ein [(100, [0, 1]), (19, [2, 3, 1])] [2, 0, 3]) 1 1,
    -- 1633: del x343
    .del 100,
    -- 1634: x347 += einsum("wij->wij", x344)
    .add 447 (.ein [(469, [0, 1, 2])] [0, 1, 2]) 1 1,
    -- 1635: del x344
    .del 469,
    -- 1636: x345 += einsum("wia->wia", gc.aa.bov)
    .add 438 (.ein [(66, [0, 1, 2])] [0, 1, 2]) 1 1,
    -- 1637: x346 = np.zeros((nbos, nocc[0], nocc[0]), dtype=types[float])
    .zeros 470 [2, 0, 0],
    -- 1638: x346 += einsum("ia,wja->wji", t1.aa, x345)
    .add 470 (.ein [(8, [0, 1]), (438, [2, 3, 1])] [2, 3, 0]) 1 1,
    -- 1639: x347 += einsum("wij->wij", x346)
    .add 447 (.ein [(470, [0, 1, 2])] [0, 1, 2]) 1 1,
    -- 1640: del x346
    .del 470,
    -- 1641: x355 = np.zeros((nbos, nbos, nocc[0], nocc[0]), dtype=types[float])
    .zeros 471 [2, 2, 0, 0],
    -- 1642: x355 += einsum("wia,xja->xwji", u11.aa, x345)
    .add 471 (.ein [(19, [0, 1, 2]), (438, [3, 4, 2])] [3, 0, 4, 1]) 1 1,
    -- 1643: del x345
    .del 438,
    -- 1644: x356 = np.zeros((nbos, nbos, nocc[0], nvir[0]), dtype=types[float])
    .zeros 472 [2, 2, 0, 1],
    -- 1645: x356 += einsum("ia,wxij->wxja", t1.aa, x355)
    .add 472 (.ein [(8, [0, 1]), (471, [2, 3, 0, 4])] [2, 3, 4, 1]) 1 1,
    -- 1646: del x355
    .del 471,
    -- 1647: x359 += einsum("wxia->wxia", x356)
    .add 433 (.ein [(472, [0, 1, 2, 3])] [0, 1, 2, 3]) 1 1,
    -- 1648: del x356
    .del 472,
    -- 1649: x347 += einsum("wij->wij", gc.aa.boo)
    .add 447 (.ein [(65, [0, 1, 2])] [0, 1, 2]) 1 1,
    -- 1650: x348 = np.zeros((nbos, nbos, nocc[0], nvir[0]), dtype=types[float])
    .zeros 473 [2, 2, 0, 1],
    -- 1651: x348 += einsum("wia,xij->xwja", u11.aa, x347)
    .add 473 (.ein [(19, [0, 1, 2]), (447, [3, 1, 4])] [3, 0, 4, 2]) 1 1,
    -- 1652: del x347
    .del 447,
    -- 1653: x359 += einsum("wxia->wxia", x348)
    .add 433 (.ein [(473, [0, 1, 2, 3])] [0, 1, 2, 3]) 1 1,
    -- 1654: del x348
    .del 473,
    -- 1655: x349 = np.zeros((nocc[0], nocc[0], nocc[0], nvir[0]), dtype=types[float])
    .zeros 474 [0, 0, 0, 1],
    -- 1656: x349 += einsum("ijka->ikja", v.aaaa.ooov)
    .add 474 (.ein [(11, [0, 1, 2, 3])] [0, 2, 1, 3]) 1 1,
    -- 1657: x349 -= einsum("ijka->kija", v.aaaa.ooov)
    .add 474 (.ein [(11, [0, 1, 2, 3])] [2, 0, 1, 3]) (-1) 1,
    -- 1658: x350 = np.zeros((nbos, nocc[0], nocc[0]), dtype=types[float])
    .zeros 475 [2, 0, 0],
    -- 1659: x350 += einsum("wia,ijka->wjk", u11.aa, x349)
    .add 475 (.ein [(19, [0, 1, 2]), (474, [1, 3, 4, 2])] [0, 3, 4]) 1 1,
    -- 1660: del x349
    .del 474,
    -- 1661: x351 -= einsum("wij->wij", x350)
    .add 449 (.ein [(475, [0, 1, 2])] [0, 1, 2]) (-1) 1,
    -- 1662: del x350
    .del 475,
    -- 1663: x352 = np.zeros((nbos, nbos, nocc[0], nvir[0]), dtype=types[float])
    .zeros 476 [2, 2, 0, 1],
    -- 1664: x352 += einsum("wia,xij->xwja", u11.aa, x351)
    .add 476 (.ein [(19, [0, 1, 2]), (449, [3, 1, 4])] [3, 0, 4, 2]) 1 1,
    -- 1665: del x351
    .del 449,
    -- 1666: x359 += einsum("wxia->xwia", x352)
    .add 433 (.ein [(476, [0, 1, 2, 3])] [1, 0, 2, 3]) 1 1,
    -- 1667: del x352
    .del 476,
    -- 1668: x353 += einsum("wab->wab", gc.aa.bvv)
    .add 453 (.ein [(68, [0, 1, 2])] [0, 1, 2]) 1 1,
    -- 1669: x354 = np.zeros((nbos, nbos, nocc[0], nvir[0]), dtype=types[float])
    .zeros 477 [2, 2, 0, 1],
    -- 1670: x354 += einsum("wia,xba->xwib", u11.aa, x353)
    .add 477 (.ein [(19, [0, 1, 2]), (453, [3, 4, 2])] [3, 0, 1, 4]) 1 1,
    -- 1671: del x353
    .del 453,
    -- 1672: x359 -= einsum("wxia->wxia", x354)
    .add 433 (.ein [(477, [0, 1, 2, 3])] [0, 1, 2, 3]) (-1) 1,
    -- 1673: del x354
    .del 477,
    -- 1674: u12new_aa -= einsum("wxia->wxia", x359)
    .add 186 (.ein [(433, [0, 1, 2, 3])] [0, 1, 2, 3]) (-1) 1,
    -- 1675: u12new_aa -= einsum("wxia->xwia", x359)
    .add 186 (.ein [(433, [0, 1, 2, 3])] [1, 0, 2, 3]) (-1) 1,
    -- 1676: del x359
    .del 433,
    -- 1677: x368 = np.zeros((nbos, nbos, nocc[0], nvir[0]), dtype=types[float])
    .zeros 478 [2, 2, 0, 1],
    -- 1678: x368 += einsum("wxia,jbia->wxjb", u12.bb, v.aabb.ovov)
    .add 478 (.ein [(16, [0, 1, 2, 3]), (13, [4, 5, 2, 3])] [0, 1, 4, 5]) 1 1,
    -- 1679: x370 += einsum("wxia->xwia", x368)
    .add 123 (.ein [(478, [0, 1, 2, 3])] [1, 0, 2, 3]) 1 1,
    -- 1680: del x368
    .del 478,
    -- 1681: u12new_aa += einsum("ijab,wxia->xwjb", x10, x370) * -1
    .add 186 (.ein [(128, [0, 1, 2, 3]), (123, [4, 5, 0, 2])] [5, 4, 1, 3]) (-1) 1,
    -- 1682: del x10
    .del 128,
    -- 1683: u12new_bb += einsum("ijab,wxia->xwjb", t2.abab, x370)
    .add 253 (.ein [(14, [0, 1, 2, 3]), (123, [4, 5, 0, 2])] [5, 4, 1, 3]) 1 1,
    -- 1684: del x370
    .del 123,
    -- 1685: x371 = np.zeros((nbos, nbos, nocc[1], nvir[1]), dtype=types[float])
    .zeros 479 [2, 2, 4, 5],
    -- 1686: x371 += einsum("wxia,iajb->wxjb", u12.aa, v.aabb.ovov)
    .add 479 (.ein [(20, [0, 1, 2, 3]), (13, [2, 3, 4, 5])] [0, 1, 4, 5]) 1 1,
    -- 1687: x373 += einsum("wxia->xwia", x371)
    .add 157 (.ein [(479, [0, 1, 2, 3])] [1, 0, 2, 3]) 1 1,
    -- 1688: del x371
    .del 479,
    -- 1689: u12new_aa += einsum("ijab,wxjb->xwia", t2.abab, x373)
    .add 186 (.ein [(14, [0, 1, 2, 3]), (157, [4, 5, 1, 3])] [5, 4, 0, 2]) 1 1,
    -- 1690: u12new_bb += einsum("wxia,ijba->xwjb", x373, x41)
    .add 253 (.ein [(157, [0, 1, 2, 3]), (220, [2, 4, 5, 3])] [1, 0, 4, 5]) 1 1,
    -- 1691: del x41
    .del 220,
    -- 1692: del x373
    .del 157,
    -- 1693: x375 = np.zeros((nbos, nbos, nbos), dtype=types[float])
    .zeros 480 [2, 2, 2],
    -- 1694: x375 += einsum("wia,xyia->wxy", g.aa.bov, u12.aa)
    .add 480 (.ein [(2, [0, 1, 2]), (20, [3, 4, 1, 2])] [0, 3, 4]) 1 1,
    -- 1695: x377 = np.zeros((nbos, nbos, nbos), dtype=types[float])
    .zeros 481 [2, 2, 2],
    -- 1696: x377 += einsum("wxy->wyx", x375)
    .add 481 (.ein [(480, [0, 1, 2])] [0, 2, 1]) 1 1,
    -- 1697: del x375
    .del 480,
    -- 1698: x376 = np.zeros((nbos, nbos, nbos), dtype=types[float])
    .zeros 482 [2, 2, 2],
    -- 1699: x376 += einsum("wia,xyia->wxy", g.bb.bov, u12.bb)
    .add 482 (.ein [(6, [0, 1, 2]), (16, [3, 4, 1, 2])] [0, 3, 4]) 1 1,
    -- 1700: x377 += einsum("wxy->wyx", x376)
    .add 481 (.ein [(482, [0, 1, 2])] [0, 2, 1]) 1 1,
    -- 1701: del x376
    .del 482,
    -- 1702: u12new_aa += einsum("wia,wxy->yxia", u11.aa, x377)
    .add 186 (.ein [(19, [0, 1, 2]), (481, [0, 3, 4])] [4, 3, 1, 2]) 1 1,
    -- 1703: u12new_bb += einsum("wia,wxy->yxia", u11.bb, x377)
    .add 253 (.ein [(24, [0, 1, 2]), (481, [0, 3, 4])] [4, 3, 1, 2]) 1 1,
    -- 1704: del x377
    .del 481,
    -- 1705: x378 = np.zeros((nbos, nbos, nocc[1], nvir[1]), dtype=types[float])
    .zeros 483 [2, 2, 4, 5],
    -- 1706: x378 += einsum("wx,ywia->yxia", w, u12.bb)
    .add 483 (.ein [(59, [0, 1]), (16, [2, 0, 3, 4])] [2, 1, 3, 4]) 1 1,
    -- 1707: x399 -= einsum("wxia->wxia", x378)
    .add 435 (.ein [(483, [0, 1, 2, 3])] [0, 1, 2, 3]) (-1) 1,
    -- 1708: del x378
    .del 483,
    -- 1709: x379 += einsum("ia->ia", f.bb.ov)
    .add 135 (.ein [(25, [0, 1])] [0, 1]) 1 1,
    -- 1710: x380 = np.zeros((nbos, nocc[1], nocc[1]), dtype=types[float])
    .zeros 484 [2, 4, 4],
    -- 1711: x380 += einsum("ia,wja->wij", x379, u11.bb)
    .add 484 (.ein [(135, [0, 1]), (24, [2, 3, 1])] [2, 0, 3]) 1 1,
    -- 1712: del x379
    .del 135,
    -- 1713: x383 += einsum("wij->wij", x380)
    .add 457 (.ein [(484, [0, 1, 2])] [0, 1, 2]) 1 1,
    -- 1714: del x380
    .del 484,
    -- 1715: x381 += einsum("wia->wia", gc.bb.bov)
    .add 445 (.ein [(70, [0, 1, 2])] [0, 1, 2]) 1 1,
    -- 1716: x382 = np.zeros((nbos, nocc[1], nocc[1]), dtype=types[float])
    .zeros 485 [2, 4, 4],
    -- 1717: x382 += einsum("ia,wja->wji", t1.bb, x381)
    .add 485 (.ein [(18, [0, 1]), (445, [2, 3, 1])] [2, 3, 0]) 1 1,
    -- 1718: x383 += einsum("wij->wij", x382)
    .add 457 (.ein [(485, [0, 1, 2])] [0, 1, 2]) 1 1,
    -- 1719: del x382
    .del 485,
    -- 1720: x396 = np.zeros((nbos, nbos, nocc[1], nocc[1]), dtype=types[float])
    .zeros 486 [2, 2, 4, 4],
    -- 1721: x396 += einsum("wia,xja->xwji", u11.bb, x381)
    .add 486 (.ein [(24, [0, 1, 2]), (445, [3, 4, 2])] [3, 0, 4, 1]) 1 1,
    -- 1722: del x381
    .del 445,
    -- 1723: x397 = np.zeros((nbos, nbos, nocc[1], nvir[1]), dtype=types[float])
    .zeros 487 [2, 2, 4, 5],
    -- 1724: x397 += einsum("ia,wxij->wxja", t1.bb, x396)
    .add 487 (.ein [(18, [0, 1]), (486, [2, 3, 0, 4])] [2, 3, 4, 1]) 1 1,
    -- 1725: del x396
    .del 486,
    -- 1726: x399 += einsum("wxia->wxia", x397)
    .add 435 (.ein [(487, [0, 1, 2, 3])] [0, 1, 2, 3]) 1 1,
    -- 1727: del x397
    .del 487,
    -- 1728: x383 += einsum("wij->wij", gc.bb.boo)
    .add 457 (.ein [(69, [0, 1, 2])] [0, 1, 2]) 1 1,
    -- 1729: x384 = np.zeros((nbos, nbos, nocc[1], nvir[1]), dtype=types[float])
    .zeros 488 [2, 2, 4, 5],
    -- 1730: x384 += einsum("wia,xij->xwja", u11.bb, x383)
    .add 488 (.ein [(24, [0, 1, 2]), (457, [3, 1, 4])] [3, 0, 4, 2]) 1 1,
    -- 1731: del x383
    .del 457,
    -- 1732: x399 += einsum("wxia->wxia", x384)
    .add 435 (.ein [(488, [0, 1, 2, 3])] [0, 1, 2, 3]) 1 1,
    -- 1733: del x384
    .del 488,
    -- 1734: x385 += einsum("wab->wab", gc.bb.bvv)
    .add 463 (.ein [(72, [0, 1, 2])] [0, 1, 2]) 1 1,
    -- 1735: x386 = np.zeros((nbos, nbos, nocc[1], nvir[1]), dtype=types[float])
    .zeros 489 [2, 2, 4, 5],
    -- 1736: x386 += einsum("wia,xba->xwib", u11.bb, x385)
    .add 489 (.ein [(24, [0, 1, 2]), (463, [3, 4, 2])] [3, 0, 1, 4]) 1 1,
    -- 1737: del x385
    .del 463,
    -- 1738: x399 -= einsum("wxia->wxia", x386)
    .add 435 (.ein [(489, [0, 1, 2, 3])] [0, 1, 2, 3]) (-1) 1,
    -- 1739: del x386
    .del 489,
    -- 1740: x387 = np.zeros((nbos, nvir[1], nvir[1]), dtype=types[float])
    .zeros 490 [2, 5, 5],
    -- 1741: x387 += einsum("wia,xwib->xab", g.bb.bov, u12.bb)
    .add 490 (.ein [(6, [0, 1, 2]), (16, [3, 0, 1, 4])] [3, 2, 4]) 1 1,
    -- 1742: x390 = np.zeros((nbos, nvir[1], nvir[1]), dtype=types[float])
    .zeros 491 [2, 5, 5],
    -- 1743: x390 += einsum("wab->wab", x387)
    .add 491 (.ein [(490, [0, 1, 2])] [0, 1, 2]) 1 1,
    -- 1744: del x387
    .del 490,
    -- 1745: x388 = np.zeros((nocc[1], nvir[1], nvir[1], nvir[1]), dtype=types[float])
    .zeros 492 [4, 5, 5, 5],
    -- 1746: x388 += einsum("iabc->ibac", v.bbbb.ovvv)
    .add 492 (.ein [(34, [0, 1, 2, 3])] [0, 2, 1, 3]) 1 1,
    -- 1747: x388 -= einsum("iabc->ibca", v.bbbb.ovvv)
    .add 492 (.ein [(34, [0, 1, 2, 3])] [0, 2, 3, 1]) (-1) 1,
    -- 1748: x389 = np.zeros((nbos, nvir[1], nvir[1]), dtype=types[float])
    .zeros 493 [2, 5, 5],
    -- 1749: x389 += einsum("wia,ibac->wbc", u11.bb, x388)
    .add 493 (.ein [(24, [0, 1, 2]), (492, [1, 3, 2, 4])] [0, 3, 4]) 1 1,
    -- 1750: x390 -= einsum("wab->wba", x389)
    .add 491 (.ein [(493, [0, 1, 2])] [0, 2, 1]) (-1) 1,
    -- 1751: del x389
    .del 493,
    -- 1752: x391 = np.zeros((nbos, nbos, nocc[1], nvir[1]), dtype=types[float])
    .zeros 494 [2, 2, 4, 5],
    -- 1753: x391 += einsum("wia,xab->xwib", u11.bb, x390)
    .add 494 (.ein [(24, [0, 1, 2]), (491, [3, 2, 4])] [3, 0, 1, 4]) 1 1,
    -- 1754: del x390
    .del 491,
    -- 1755: x399 += einsum("wxia->xwia", x391)
    .add 435 (.ein [(494, [0, 1, 2, 3])] [1, 0, 2, 3]) 1 1,
    -- 1756: del x391
    .del 494,
    -- 1757: x411 = np.zeros((nocc[1], nocc[1], nvir[1], nvir[1]), dtype=types[float])
    .zeros 495 [4, 4, 5, 5],
    -- 1758: x411 -= einsum("ia,jbac->jibc", t1.bb, x388)
    .add 495 (.ein [(18, [0, 1]), (492, [2, 3, 1, 4])] [2, 0, 3, 4]) (-1) 1,
    -- 1759: del x388
    .del 492,
    -- 1760: x392 = np.zeros((nocc[1], nocc[1], nocc[1], nvir[1]), dtype=types[float])
    .zeros 496 [4, 4, 4, 5],
    -- 1761: x392 += einsum("ijka->ikja", v.bbbb.ooov)
    .add 496 (.ein [(33, [0, 1, 2, 3])] [0, 2, 1, 3]) 1 1,
    -- 1762: x392 -= einsum("ijka->kija", v.bbbb.ooov)
    .add 496 (.ein [(33, [0, 1, 2, 3])] [2, 0, 1, 3]) (-1) 1,
    -- 1763: x393 = np.zeros((nbos, nocc[1], nocc[1]), dtype=types[float])
    .zeros 497 [2, 4, 4],
    -- 1764: x393 += einsum("wia,ijka->wjk", u11.bb, x392)
    .add 497 (.ein [(24, [0, 1, 2]), (496, [1, 3, 4, 2])] [0, 3, 4]) 1 1,
    -- 1765: del x392
    .del 496,
    -- 1766: x394 -= einsum("wij->wij", x393)
    .add 459 (.ein [(497, [0, 1, 2])] [0, 1, 2]) (-1) 1,
    -- 1767: del x393
    .del 497,
    -- 1768: x395 = np.zeros((nbos, nbos, nocc[1], nvir[1]), dtype=types[float])
    .zeros 498 [2, 2, 4, 5],
    -- 1769: x395 += einsum("wia,xij->xwja", u11.bb, x394)
    .add 498 (.ein [(24, [0, 1, 2]), (459, [3, 1, 4])] [3, 0, 4, 2]) 1 1,
    -- 1770: del x394
    .del 459,
    -- 1771: x399 += einsum("wxia->xwia", x395)
    .add 435 (.ein [(498, [0, 1, 2, 3])] [1, 0, 2, 3]) 1 1,
    -- 1772: del x395
    .del 498,
    -- 1773: u12new_bb -= einsum("wxia->wxia", x399)
    .add 253 (.ein [(435, [0, 1, 2, 3])] [0, 1, 2, 3]) (-1) 1,
    -- 1774: u12new_bb -= einsum("wxia->xwia", x399)
    .add 253 (.ein [(435, [0, 1, 2, 3])] [1, 0, 2, 3]) (-1) 1,
    -- 1775: del x399
    .del 435,
    -- 1776: x411 += einsum("iabj->ijba", v.bbbb.ovvo)
    .add 495 (.ein [(36, [0, 1, 2, 3])] [0, 3, 2, 1]) 1 1,
    -- 1777: x411 -= einsum("ijab->ijab", v.bbbb.oovv)
    .add 495 (.ein [(37, [0, 1, 2, 3])] [0, 1, 2, 3]) (-1) 1,
    -- 1778: u12new_bb += einsum("wxia,ijba->xwjb", u12.bb, x411)
    .add 253 (.ein [(16, [0, 1, 2, 3]), (495, [2, 4, 5, 3])] [1, 0, 4, 5]) 1 1,
    -- 1779: del x411
    .del 495,
    -- 1780: x412 += einsum("iabj->ijab", v.aabb.ovvo)
    .add 329 (.ein [(47, [0, 1, 2, 3])] [0, 3, 1, 2]) 1 1,
    -- 1781: u12new_bb += einsum("wxia,ijab->xwjb", u12.aa, x412)
    .add 253 (.ein [(20, [0, 1, 2, 3]), (329, [2, 4, 3, 5])] [1, 0, 4, 5]) 1 1,
    -- 1782: del x412
    .del 329,
    -- 1783: t1new_aa += einsum("w,wai->ia", s1, g.aa.bvo)
    .add 83 (.ein [(17, [0]), (1, [0, 1, 2])] [2, 1]) 1 1,
    -- 1784: t1new_aa += einsum("ijab,jbca->ic", t2.abab, v.bbaa.ovvv)
    .add 83 (.ein [(14, [0, 1, 2, 3]), (29, [1, 3, 4, 2])] [0, 4]) 1 1,
    -- 1785: t1new_aa += einsum("wab,wib->ia", g.aa.bvv, u11.aa)
    .add 83 (.ein [(3, [0, 1, 2]), (19, [0, 3, 2])] [3, 1]) 1 1,
    -- 1786: t1new_aa += einsum("ai->ia", f.aa.vo)
    .add 83 (.ein [(60, [0, 1])] [1, 0]) 1 1,
    -- 1787: t1new_aa += einsum("ia,iabj->jb", t1.bb, v.bbaa.ovvo)
    .add 83 (.ein [(18, [0, 1]), (42, [0, 1, 2, 3])] [3, 2]) 1 1,
    -- 1788: t1new_bb += einsum("w,wai->ia", s1, g.bb.bvo)
    .add 127 (.ein [(17, [0]), (5, [0, 1, 2])] [2, 1]) 1 1,
    -- 1789: t1new_bb += einsum("wab,wib->ia", g.bb.bvv, u11.bb)
    .add 127 (.ein [(7, [0, 1, 2]), (24, [0, 3, 2])] [3, 1]) 1 1,
    -- 1790: t1new_bb += einsum("ia,iabj->jb", t1.aa, v.aabb.ovvo)
    .add 127 (.ein [(8, [0, 1]), (47, [0, 1, 2, 3])] [3, 2]) 1 1,
    -- 1791: t1new_bb += einsum("ijab,iacb->jc", t2.abab, v.aabb.ovvv)
    .add 127 (.ein [(14, [0, 1, 2, 3]), (39, [0, 2, 4, 3])] [1, 4]) 1 1,
    -- 1792: t1new_bb += einsum("ai->ia", f.bb.vo)
    .add 127 (.ein [(61, [0, 1])] [1, 0]) 1 1,
    -- 1793: t2new_aaaa -= einsum("aibj->jiab", v.aaaa.vovo)
    .add 292 (.ein [(62, [0, 1, 2, 3])] [3, 1, 0, 2]) (-1) 1,
    -- 1794: t2new_aaaa += einsum("aibj->jiba", v.aaaa.vovo)
    .add 292 (.ein [(62, [0, 1, 2, 3])] [3, 1, 2, 0]) 1 1,
    -- 1795: t2new_bbbb -= einsum("aibj->jiab", v.bbbb.vovo)
    .add 274 (.ein [(63, [0, 1, 2, 3])] [3, 1, 0, 2]) (-1) 1,
    -- 1796: t2new_bbbb += einsum("aibj->jiba", v.bbbb.vovo)
    .add 274 (.ein [(63, [0, 1, 2, 3])] [3, 1, 2, 0]) 1 1,
    -- 1797: t2new_baba += einsum("aibj->jiba", v.aabb.vovo)
    .add 184 (.ein [(64, [0, 1, 2, 3])] [3, 1, 2, 0]) 1 1,
    -- 1798: t2new_abab += einsum("aibj->ijab", v.aabb.vovo)
    .add 185 (.ein [(64, [0, 1, 2, 3])] [1, 3, 0, 2]) 1 1,
    -- 1799: s1new += einsum("wia,xwia->x", g.aa.bov, u12.aa)
    .add 198 (.ein [(2, [0, 1, 2]), (20, [3, 0, 1, 2])] [3]) 1 1,
    -- 1800: s1new += einsum("w,wx->x", s1, w)
    .add 198 (.ein [(17, [0]), (59, [0, 1])] [1]) 1 1,
    -- 1801: s1new += einsum("ia,wia->w", t1.aa, gc.aa.bov)
    .add 198 (.ein [(8, [0, 1]), (66, [2, 0, 1])] [2]) 1 1,
    -- 1802: s1new += einsum("w->w", G)
    .add 198 (.ein [(31, [0])] [0]) 1 1,
    -- 1803: s1new += einsum("ia,wia->w", t1.bb, gc.bb.bov)
    .add 198 (.ein [(18, [0, 1]), (70, [2, 0, 1])] [2]) 1 1,
    -- 1804: s1new += einsum("wia,xwia->x", g.bb.bov, u12.bb)
    .add 198 (.ein [(6, [0, 1, 2]), (16, [3, 0, 1, 2])] [3]) 1 1,
    -- 1805: u11new_aa += einsum("wx,xai->wia", s2, g.aa.bvo)
    .add 165 (.ein [(32, [0, 1]), (1, [1, 2, 3])] [0, 3, 2]) 1 1,
    -- 1806: u11new_aa += einsum("wab,xwib->xia", g.aa.bvv, u12.aa)
    .add 165 (.ein [(3, [0, 1, 2]), (20, [3, 0, 4, 2])] [3, 4, 1]) 1 1,
    -- 1807: u11new_aa += einsum("wai->wia", gc.aa.bvo)
    .add 165 (.ein [(67, [0, 1, 2])] [0, 2, 1]) 1 1,
    -- 1808: u11new_aa += einsum("wia,iabj->wjb", u11.bb, v.bbaa.ovvo)
    .add 165 (.ein [(24, [0, 1, 2]), (42, [1, 2, 3, 4])] [0, 4, 3]) 1 1,
    -- 1809: u11new_bb += einsum("wx,xai->wia", s2, g.bb.bvo)
    .add 199 (.ein [(32, [0, 1]), (5, [1, 2, 3])] [0, 3, 2]) 1 1,
    -- 1810: u11new_bb += einsum("wab,xwib->xia", g.bb.bvv, u12.bb)
    .add 199 (.ein [(7, [0, 1, 2]), (16, [3, 0, 4, 2])] [3, 4, 1]) 1 1,
    -- 1811: u11new_bb += einsum("wia,iabj->wjb", u11.aa, v.aabb.ovvo)
    .add 199 (.ein [(19, [0, 1, 2]), (47, [1, 2, 3, 4])] [0, 4, 3]) 1 1,
    -- 1812: u11new_bb += einsum("wai->wia", gc.bb.bvo)
    .add 199 (.ein [(71, [0, 1, 2])] [0, 2, 1]) 1 1,
    -- 1814: t1new.aa = t1new_aa
    .set 499 (.cp 83) 1 1,
    -- 1815: t1new.bb = t1new_bb
    .set 500 (.cp 127) 1 1,
    -- 1816: t2new.abab = t2new_abab
    .set 501 (.cp 185) 1 1,
    -- 1817: t2new.baba = t2new_baba
    .set 502 (.cp 184) 1 1,
    -- 1818: t2new.aaaa = t2new_aaaa
    .set 503 (.cp 292) 1 1,
    -- 1819: t2new.bbbb = t2new_bbbb
    .set 504 (.cp 274) 1 1,
    -- 1820: u11new.aa = u11new_aa
    .set 505 (.cp 165) 1 1,
    -- 1821: u11new.bb = u11new_bb
    .set 506 (.cp 199) 1 1,
    -- 1822: u12new.aa = u12new_aa
    .set 507 (.cp 186) 1 1,
    -- 1823: u12new.bb = u12new_bb
    .set 508 (.cp 253) 1 1
  ]
  ret := [(chars! "t1new.aa", 499), (chars! "t1new.bb", 500), (chars! "t2new.abab", 501), (chars! "t2new.baba", 502), (chars! "t2new.aaaa", 503), (chars! "t2new.bbbb", 504), (chars! "s1new", 198), (chars! "s2new", 276), (chars! "u11new.aa", 505), (chars! "u11new.bb", 506), (chars! "u12new.aa", 507), (chars! "u12new.bb", 508)]

/-- codegen/UCCSD_SD_1_2.py:1827-4673 `update_lams`. -/
def update_lams : GenFun where
  args := [chars! "g.aa.boo", chars! "g.aa.bvo", chars! "g.aa.bov", chars! "g.aa.bvv", chars! "g.bb.boo", chars! "g.bb.bvo", chars! "g.bb.bov", chars! "g.bb.bvv", chars! "l2.abab", chars! "t2.abab", chars! "v.aabb.ovoo", chars! "v.aabb.ooov", chars! "t1.bb", chars! "t1.aa", chars! "v.aabb.ovov", chars! "v.bbaa.ovvv", chars! "v.bbaa.oovv", chars! "v.aabb.ovvv", chars! "s1", chars! "f.aa.ov", chars! "t2.aaaa", chars! "v.aaaa.oovo", chars! "v.aaaa.ovvv", chars! "v.aaaa.ovov", chars! "u11.aa", chars! "u12.aa", chars! "l2.aaaa", chars! "v.aaaa.ooov", chars! "l1.aa", chars! "u12.bb", chars! "v.aaaa.ovvo", chars! "v.aaaa.oovv", chars! "v.aaaa.oooo", chars! "lu12.aa", chars! "t2.bbbb", chars! "l2.bbbb", chars! "lu12.bb", chars! "ls1", chars! "ls2", chars! "v.aabb.oooo", chars! "v.aabb.ovvo", chars! "v.aabb.oovo", chars! "v.aabb.oovv", chars! "v.bbbb.ovvv", chars! "l1.bb", chars! "v.aaaa.vvvv", chars! "v.aaaa.vovv", chars! "v.aabb.vvvo", chars! "v.aabb.vvvv", chars! "s2", chars! "u11.bb", chars! "lu11.aa", chars! "v.bbaa.ovvo", chars! "v.bbbb.ovov", chars! "f.bb.ov", chars! "f.aa.oo", chars! "f.aa.vv", chars! "G", chars! "f.aa.vo", chars! "v.bbbb.ooov", chars! "v.bbbb.ovvo", chars! "v.bbbb.oovv", chars! "f.bb.oo", chars! "f.bb.vv", chars! "f.bb.vo", chars! "lu11.bb", chars! "w", chars! "v.bbbb.oovo", chars! "v.bbbb.oooo", chars! "v.bbaa.oovo", chars! "v.bbbb.vvvv", chars! "v.bbbb.vovv", chars! "v.aabb.vovv"]
  body := [
    -- 1834: gc = Namespace(
    .set 73 (.tr 0 [0, 2, 1]) 1 1,
    .set 74 (.tr 1 [0, 2, 1]) 1 1,
    .set 75 (.tr 2 [0, 2, 1]) 1 1,
    .set 76 (.tr 3 [0, 2, 1]) 1 1,
    .set 77 (.tr 4 [0, 2, 1]) 1 1,
    .set 78 (.tr 5 [0, 2, 1]) 1 1,
    .set 79 (.tr 6 [0, 2, 1]) 1 1,
    .set 80 (.tr 7 [0, 2, 1]) 1 1,
    -- 1850: x0 = np.zeros((nocc[0], nocc[0], nocc[1], nocc[1]), dtype=types[float])
    .zeros 81 [0, 0, 4, 4],
    -- 1851: x0 += einsum("abij,klab->ikjl", l2.abab, t2.abab)
    .add 81 (.ein [(8, [0, 1, 2, 3]), (9, [4, 5, 0, 1])] [2, 4, 3, 5]) 1 1,
    -- 1852: x61 = np.zeros((nocc[0], nocc[0], nocc[1], nocc[1]), dtype=types[float])
    .zeros 82 [0, 0, 4, 4],
    -- 1853: x61 += einsum("ijkl->ijkl", x0)
    .add 82 (.ein [(81, [0, 1, 2, 3])] [0, 1, 2, 3]) 1 1,
    -- 1854: x531 = np.zeros((nocc[0], nocc[0], nocc[1], nocc[1]), dtype=types[float])
    .zeros 83 [0, 0, 4, 4],
    -- 1855: x531 += einsum("ijkl->ijkl", x0)
    .add 83 (.ein [(81, [0, 1, 2, 3])] [0, 1, 2, 3]) 1 1,
    -- 1856: l1new_aa = np.zeros((nvir[0], nocc[0]), dtype=types[float])
    .zeros 84 [1, 0],
    -- 1857: l1new_aa += einsum("iajk,likj->al", v.aabb.ovoo, x0)
    .add 84 (.ein [(10, [0, 1, 2, 3]), (81, [4, 0, 3, 2])] [1, 4]) 1 1,
    -- 1858: l1new_bb = np.zeros((nvir[1], nocc[1]), dtype=types[float])
    .zeros 85 [5, 4],
    -- 1859: l1new_bb += einsum("ijka,jilk->al", v.aabb.ooov, x0)
    .add 85 (.ein [(11, [0, 1, 2, 3]), (81, [1, 0, 4, 2])] [3, 4]) 1 1,
    -- 1860: del x0
    .del 81,
    -- 1861: x1 = np.zeros((nocc[0], nocc[1], nocc[1], nvir[0]), dtype=types[float])
    .zeros 86 [0, 4, 4, 1],
    -- 1862: x1 += einsum("ia,bajk->jkib", t1.bb, l2.abab)
    .add 86 (.ein [(12, [0, 1]), (8, [2, 1, 3, 4])] [3, 4, 0, 2]) 1 1,
    -- 1863: x2 = np.zeros((nocc[0], nocc[0], nocc[1], nocc[1]), dtype=types[float])
    .zeros 87 [0, 0, 4, 4],
    -- 1864: x2 += einsum("ia,jkla->jikl", t1.aa, x1)
    .add 87 (.ein [(13, [0, 1]), (86, [2, 3, 4, 1])] [2, 0, 3, 4]) 1 1,
    -- 1865: x61 += einsum("ijkl->ijkl", x2)
    .add 82 (.ein [(87, [0, 1, 2, 3])] [0, 1, 2, 3]) 1 1,
    -- 1866: x62 = np.zeros((nocc[0], nocc[0], nocc[1], nvir[1]), dtype=types[float])
    .zeros 88 [0, 0, 4, 5],
    -- 1867: x62 += einsum("ia,jkil->jkla", t1.bb, x61)
    .add 88 (.ein [(12, [0, 1]), (82, [2, 3, 0, 4])] [2, 3, 4, 1]) 1 1,
    -- 1868: x301 = np.zeros((nocc[0], nocc[1], nocc[1], nvir[0]), dtype=types[float])
    .zeros 89 [0, 4, 4, 1],
    -- 1869: x301 += einsum("ia,ijkl->jkla", t1.aa, x61)
    .add 89 (.ein [(13, [0, 1]), (82, [0, 2, 3, 4])] [2, 3, 4, 1]) 1 1,
    -- 1870: del x61
    .del 82,
    -- 1871: x531 += einsum("ijkl->ijkl", x2)
    .add 83 (.ein [(87, [0, 1, 2, 3])] [0, 1, 2, 3]) 1 1,
    -- 1872: x532 = np.zeros((nocc[0], nocc[1], nvir[0], nvir[1]), dtype=types[float])
    .zeros 90 [0, 4, 1, 5],
    -- 1873: x532 += einsum("iajb,kilj->klab", v.aabb.ovov, x531)
    .add 90 (.ein [(14, [0, 1, 2, 3]), (83, [4, 0, 5, 2])] [4, 5, 1, 3]) 1 1,
    -- 1874: del x531
    .del 83,
    -- 1875: l2new_baba = np.zeros((nvir[1], nvir[0], nocc[1], nocc[0]), dtype=types[float])
    .zeros 91 [5, 1, 4, 0],
    -- 1876: l2new_baba += einsum("ijab->baji", x532)
    .add 91 (.ein [(90, [0, 1, 2, 3])] [3, 2, 1, 0]) 1 1,
    -- 1877: l2new_abab = np.zeros((nvir[0], nvir[1], nocc[0], nocc[1]), dtype=types[float])
    .zeros 92 [1, 5, 0, 4],
    -- 1878: l2new_abab += einsum("ijab->abij", x532)
    .add 92 (.ein [(90, [0, 1, 2, 3])] [2, 3, 0, 1]) 1 1,
    -- 1879: del x532
    .del 90,
    -- 1880: l1new_aa += einsum("iajk,likj->al", v.aabb.ovoo, x2)
    .add 84 (.ein [(10, [0, 1, 2, 3]), (87, [4, 0, 3, 2])] [1, 4]) 1 1,
    -- 1881: l1new_bb += einsum("ijka,jilk->al", v.aabb.ooov, x2)
    .add 85 (.ein [(11, [0, 1, 2, 3]), (87, [1, 0, 4, 2])] [3, 4]) 1 1,
    -- 1882: del x2
    .del 87,
    -- 1883: x53 = np.zeros((nocc[0], nocc[1], nvir[0], nvir[1]), dtype=types[float])
    .zeros 93 [0, 4, 1, 5],
    -- 1884: x53 += einsum("ia,jikb->jkba", t1.bb, x1)
    .add 93 (.ein [(12, [0, 1]), (86, [2, 0, 3, 4])] [2, 3, 4, 1]) 1 1,
    -- 1885: x62 += einsum("ijab,kjla->kilb", t2.abab, x1)
    .add 88 (.ein [(9, [0, 1, 2, 3]), (86, [4, 1, 5, 2])] [4, 0, 5, 3]) 1 1,
    -- 1886: x192 = np.zeros((nocc[1], nvir[1]), dtype=types[float])
    .zeros 94 [4, 5],
    -- 1887: x192 += einsum("ijab,ijka->kb", t2.abab, x1)
    .add 94 (.ein [(9, [0, 1, 2, 3]), (86, [0, 1, 4, 2])] [4, 3]) 1 1,
    -- 1888: x207 = np.zeros((nocc[1], nvir[1]), dtype=types[float])
    .zeros 95 [4, 5],
    -- 1889: x207 += einsum("ia->ia", x192)
    .add 95 (.ein [(94, [0, 1])] [0, 1]) 1 1,
    -- 1890: del x192
    .del 94,
    -- 1891: x299 = np.zeros((nocc[1], nocc[1], nocc[1], nvir[1]), dtype=types[float])
    .zeros 96 [4, 4, 4, 5],
    -- 1892: x299 += einsum("ijab,ikla->kljb", t2.abab, x1)
    .add 96 (.ein [(9, [0, 1, 2, 3]), (86, [0, 4, 5, 2])] [4, 5, 1, 3]) 1 1,
    -- 1893: x353 = np.zeros((nocc[0], nocc[0], nvir[0], nvir[0]), dtype=types[float])
    .zeros 97 [0, 0, 1, 1],
    -- 1894: x353 += einsum("iajk,lkjb->liba", v.aabb.ovoo, x1)
    .add 97 (.ein [(10, [0, 1, 2, 3]), (86, [4, 3, 2, 5])] [4, 0, 5, 1]) 1 1,
    -- 1895: x390 = np.zeros((nocc[0], nocc[0], nvir[0], nvir[0]), dtype=types[float])
    .zeros 98 [0, 0, 1, 1],
    -- 1896: x390 -= einsum("ijab->ijab", x353)
    .add 98 (.ein [(97, [0, 1, 2, 3])] [0, 1, 2, 3]) (-1) 1,
    -- 1897: del x353
    .del 97,
    -- 1898: x503 = np.zeros((nocc[0], nocc[1], nvir[0], nvir[1]), dtype=types[float])
    .zeros 99 [0, 4, 1, 5],
    -- 1899: x503 += einsum("iabc,jkib->jkca", v.bbaa.ovvv, x1)
    .add 99 (.ein [(15, [0, 1, 2, 3]), (86, [4, 5, 0, 2])] [4, 5, 3, 1]) 1 1,
    -- 1900: l2new_baba -= einsum("ijab->baji", x503)
    .add 91 (.ein [(99, [0, 1, 2, 3])] [3, 2, 1, 0]) (-1) 1,
    -- 1901: l2new_abab -= einsum("ijab->abij", x503)
    .add 92 (.ein [(99, [0, 1, 2, 3])] [2, 3, 0, 1]) (-1) 1,
    -- 1902: del x503
    .del 99,
    -- 1903: l1new_aa -= einsum("ijab,kjia->bk", v.bbaa.oovv, x1)
    .add 84 (.ein [(16, [0, 1, 2, 3]), (86, [4, 1, 0, 2])] [3, 4]) (-1) 1,
    -- 1904: x3 = np.zeros((nocc[0], nocc[0], nvir[1], nvir[1]), dtype=types[float])
    .zeros 100 [0, 0, 5, 5],
    -- 1905: x3 += einsum("abij,kjac->ikbc", l2.abab, t2.abab)
    .add 100 (.ein [(8, [0, 1, 2, 3]), (9, [4, 3, 0, 5])] [2, 4, 1, 5]) 1 1,
    -- 1906: l1new_aa += einsum("iabc,jibc->aj", v.aabb.ovvv, x3) * -1
    .add 84 (.ein [(17, [0, 1, 2, 3]), (100, [4, 0, 2, 3])] [1, 4]) (-1) 1,
    -- 1907: del x3
    .del 100,
    -- 1908: x4 = np.zeros((nocc[0], nvir[0]), dtype=types[float])
    .zeros 101 [0, 1],
    -- 1909: x4 += einsum("w,wia->ia", s1, g.aa.bov)
    .add 101 (.ein [(18, [0]), (2, [0, 1, 2])] [1, 2]) 1 1,
    -- 1910: x5 = np.zeros((nocc[0], nvir[0]), dtype=types[float])
    .zeros 102 [0, 1],
    -- 1911: x5 += einsum("ia->ia", x4)
    .add 102 (.ein [(101, [0, 1])] [0, 1]) 1 1,
    -- 1912: x41 = np.zeros((nocc[0], nvir[0]), dtype=types[float])
    .zeros 103 [0, 1],
    -- 1913: x41 += einsum("ia->ia", x4)
    .add 103 (.ein [(101, [0, 1])] [0, 1]) 1 1,
    -- 1914: x372 = np.zeros((nocc[0], nvir[0]), dtype=types[float])
    .zeros 104 [0, 1],
    -- 1915: x372 += einsum("ia->ia", x4)
    .add 104 (.ein [(101, [0, 1])] [0, 1]) 1 1,
    -- 1916: x564 = np.zeros((nocc[0], nvir[0]), dtype=types[float])
    .zeros 105 [0, 1],
    -- 1917: x564 += einsum("ia->ia", x4)
    .add 105 (.ein [(101, [0, 1])] [0, 1]) 1 1,
    -- 1918: del x4
    .del 101,
    -- 1919: x5 += einsum("ia->ia", f.aa.ov)
    .add 102 (.ein [(19, [0, 1])] [0, 1]) 1 1,
    -- 1920: x6 = np.zeros((nocc[0], nocc[0], nocc[0], nvir[0]), dtype=types[float])
    .zeros 106 [0, 0, 0, 1],
    -- 1921: x6 += einsum("ia,jkab->jkib", x5, t2.aaaa)
    .add 106 (.ein [(102, [0, 1]), (20, [2, 3, 1, 4])] [2, 3, 0, 4]) 1 1,
    -- 1922: del x5
    .del 102,
    -- 1923: x7 = np.zeros((nocc[0], nocc[0], nocc[0], nvir[0]), dtype=types[float])
    .zeros 107 [0, 0, 0, 1],
    -- 1924: x7 += einsum("ijka->kjia", x6)
    .add 107 (.ein [(106, [0, 1, 2, 3])] [2, 1, 0, 3]) 1 1,
    -- 1925: del x6
    .del 106,
    -- 1926: x7 += einsum("ijak->ijka", v.aaaa.oovo) * -1
    .add 107 (.ein [(21, [0, 1, 2, 3])] [0, 1, 3, 2]) (-1) 1,
    -- 1927: x32 = np.zeros((nocc[0], nocc[0], nocc[0], nvir[0]), dtype=types[float])
    .zeros 108 [0, 0, 0, 1],
    -- 1928: x32 += einsum("ijka->kija", x7)
    .add 108 (.ein [(107, [0, 1, 2, 3])] [2, 0, 1, 3]) 1 1,
    -- 1929: x32 += einsum("ijka->jika", x7) * -1
    .add 108 (.ein [(107, [0, 1, 2, 3])] [1, 0, 2, 3]) (-1) 1,
    -- 1930: del x7
    .del 107,
    -- 1931: x8 = np.zeros((nocc[0], nocc[0], nocc[0], nvir[0]), dtype=types[float])
    .zeros 109 [0, 0, 0, 1],
    -- 1932: x8 += einsum("ijab,kbca->jikc", t2.aaaa, v.aaaa.ovvv)
    .add 109 (.ein [(20, [0, 1, 2, 3]), (22, [4, 3, 5, 2])] [1, 0, 4, 5]) 1 1,
    -- 1933: x21 = np.zeros((nocc[0], nocc[0], nocc[0], nvir[0]), dtype=types[float])
    .zeros 110 [0, 0, 0, 1],
    -- 1934: x21 += einsum("ijka->ijka", x8) * -1
    .add 110 (.ein [(109, [0, 1, 2, 3])] [0, 1, 2, 3]) (-1) 1,
    -- 1935: del x8
    .del 109,
    -- 1936: x9 = np.zeros((nocc[0], nocc[0], nvir[0], nvir[0]), dtype=types[float])
    .zeros 111 [0, 0, 1, 1],
    -- 1937: x9 += einsum("ia,jbca->ijcb", t1.aa, v.aaaa.ovvv)
    .add 111 (.ein [(13, [0, 1]), (22, [2, 3, 4, 1])] [0, 2, 4, 3]) 1 1,
    -- 1938: x10 = np.zeros((nocc[0], nocc[0], nocc[0], nvir[0]), dtype=types[float])
    .zeros 112 [0, 0, 0, 1],
    -- 1939: x10 += einsum("ia,jkba->ijkb", t1.aa, x9)
    .add 112 (.ein [(13, [0, 1]), (111, [2, 3, 4, 1])] [0, 2, 3, 4]) 1 1,
    -- 1940: del x9
    .del 111,
    -- 1941: x21 += einsum("ijka->ijka", x10) * -1
    .add 110 (.ein [(112, [0, 1, 2, 3])] [0, 1, 2, 3]) (-1) 1,
    -- 1942: del x10
    .del 112,
    -- 1943: x11 = np.zeros((nocc[0], nvir[0]), dtype=types[float])
    .zeros 113 [0, 1],
    -- 1944: x11 += einsum("ia,jbia->jb", t1.bb, v.aabb.ovov)
    .add 113 (.ein [(12, [0, 1]), (14, [2, 3, 0, 1])] [2, 3]) 1 1,
    -- 1945: x14 = np.zeros((nocc[0], nvir[0]), dtype=types[float])
    .zeros 114 [0, 1],
    -- 1946: x14 += einsum("ia->ia", x11)
    .add 114 (.ein [(113, [0, 1])] [0, 1]) 1 1,
    -- 1947: x41 += einsum("ia->ia", x11)
    .add 103 (.ein [(113, [0, 1])] [0, 1]) 1 1,
    -- 1948: x389 = np.zeros((nocc[0], nvir[0]), dtype=types[float])
    .zeros 115 [0, 1],
    -- 1949: x389 += einsum("ia->ia", x11)
    .add 115 (.ein [(113, [0, 1])] [0, 1]) 1 1,
    -- 1950: x564 += einsum("ia->ia", x11)
    .add 105 (.ein [(113, [0, 1])] [0, 1]) 1 1,
    -- 1951: del x11
    .del 113,
    -- 1952: x12 = np.zeros((nocc[0], nocc[0], nvir[0], nvir[0]), dtype=types[float])
    .zeros 116 [0, 0, 1, 1],
    -- 1953: x12 += einsum("iajb->jiab", v.aaaa.ovov)
    .add 116 (.ein [(23, [0, 1, 2, 3])] [2, 0, 1, 3]) 1 1,
    -- 1954: x12 += einsum("iajb->jiba", v.aaaa.ovov) * -1
    .add 116 (.ein [(23, [0, 1, 2, 3])] [2, 0, 3, 1]) (-1) 1,
    -- 1955: x13 = np.zeros((nocc[0], nvir[0]), dtype=types[float])
    .zeros 117 [0, 1],
    -- 1956: x13 += einsum("ia,ijab->jb", t1.aa, x12)
    .add 117 (.ein [(13, [0, 1]), (116, [0, 2, 1, 3])] [2, 3]) 1 1,
    -- 1957: x14 += einsum("ia->ia", x13) * -1
    .add 114 (.ein [(117, [0, 1])] [0, 1]) (-1) 1,
    -- 1958: x15 = np.zeros((nocc[0], nocc[0], nocc[0], nvir[0]), dtype=types[float])
    .zeros 118 [0, 0, 0, 1],
    -- 1959: x15 += einsum("ia,jkab->jkib", x14, t2.aaaa)
    .add 118 (.ein [(114, [0, 1]), (20, [2, 3, 1, 4])] [2, 3, 0, 4]) 1 1,
    -- 1960: x21 += einsum("ijka->jika", x15)
    .add 110 (.ein [(118, [0, 1, 2, 3])] [1, 0, 2, 3]) 1 1,
    -- 1961: del x15
    .del 118,
    -- 1962: x404 = np.zeros((nocc[0], nocc[0]), dtype=types[float])
    .zeros 119 [0, 0],
    -- 1963: x404 += einsum("ia,ja->ij", t1.aa, x14)
    .add 119 (.ein [(13, [0, 1]), (114, [2, 1])] [0, 2]) 1 1,
    -- 1964: x405 = np.zeros((nocc[0], nocc[0]), dtype=types[float])
    .zeros 120 [0, 0],
    -- 1965: x405 += einsum("ij->ij", x404)
    .add 120 (.ein [(119, [0, 1])] [0, 1]) 1 1,
    -- 1966: del x404
    .del 119,
    -- 1967: x41 += einsum("ia->ia", x13) * -1
    .add 103 (.ein [(117, [0, 1])] [0, 1]) (-1) 1,
    -- 1968: del x13
    .del 117,
    -- 1969: x75 = np.zeros((nbos, nocc[0], nvir[0]), dtype=types[float])
    .zeros 121 [2, 0, 1],
    -- 1970: x75 += einsum("wia,ijab->wjb", u11.aa, x12)
    .add 121 (.ein [(24, [0, 1, 2]), (116, [1, 3, 2, 4])] [0, 3, 4]) 1 1,
    -- 1971: x76 = np.zeros((nbos, nocc[0], nvir[0]), dtype=types[float])
    .zeros 122 [2, 0, 1],
    -- 1972: x76 += einsum("wia->wia", x75) * -1
    .add 122 (.ein [(121, [0, 1, 2])] [0, 1, 2]) (-1) 1,
    -- 1973: x220 = np.zeros((nbos, nocc[0], nvir[0]), dtype=types[float])
    .zeros 123 [2, 0, 1],
    -- 1974: x220 += einsum("wia->wia", x75) * -1
    .add 123 (.ein [(121, [0, 1, 2])] [0, 1, 2]) (-1) 1,
    -- 1975: x229 = np.zeros((nbos, nocc[0], nvir[0]), dtype=types[float])
    .zeros 124 [2, 0, 1],
    -- 1976: x229 += einsum("wia->wia", x75) * -1
    .add 124 (.ein [(121, [0, 1, 2])] [0, 1, 2]) (-1) 1,
    -- 1977: del x75
    .del 121,
    -- 1978: x399 = np.zeros((nbos, nbos, nocc[0], nvir[0]), dtype=types[float])
    .zeros 125 [2, 2, 0, 1],
    -- 1979: x399 += einsum("wxia,ijab->wxjb", u12.aa, x12)
    .add 125 (.ein [(25, [0, 1, 2, 3]), (116, [2, 4, 3, 5])] [0, 1, 4, 5]) 1 1,
    -- 1980: x400 = np.zeros((nbos, nbos, nocc[0], nvir[0]), dtype=types[float])
    .zeros 126 [2, 2, 0, 1],
    -- 1981: x400 += einsum("wxia->xwia", x399) * -1
    .add 126 (.ein [(125, [0, 1, 2, 3])] [1, 0, 2, 3]) (-1) 1,
    -- 1982: del x399
    .del 125,
    -- 1983: x509 = np.zeros((nocc[0], nocc[1], nvir[0], nvir[1]), dtype=types[float])
    .zeros 127 [0, 4, 1, 5],
    -- 1984: x509 += einsum("ijab,ikac->kjcb", t2.abab, x12)
    .add 127 (.ein [(9, [0, 1, 2, 3]), (116, [0, 4, 2, 5])] [4, 1, 5, 3]) 1 1,
    -- 1985: x511 = np.zeros((nocc[0], nocc[1], nvir[0], nvir[1]), dtype=types[float])
    .zeros 128 [0, 4, 1, 5],
    -- 1986: x511 += einsum("ijab->ijab", x509) * -1
    .add 128 (.ein [(127, [0, 1, 2, 3])] [0, 1, 2, 3]) (-1) 1,
    -- 1987: del x509
    .del 127,
    -- 1988: x16 = np.zeros((nocc[0], nocc[0], nocc[0], nocc[0]), dtype=types[float])
    .zeros 129 [0, 0, 0, 0],
    -- 1989: x16 += einsum("ijab,kalb->ijkl", t2.aaaa, v.aaaa.ovov)
    .add 129 (.ein [(20, [0, 1, 2, 3]), (23, [4, 2, 5, 3])] [0, 1, 4, 5]) 1 1,
    -- 1990: x19 = np.zeros((nocc[0], nocc[0], nocc[0], nocc[0]), dtype=types[float])
    .zeros 130 [0, 0, 0, 0],
    -- 1991: x19 += einsum("ijkl->jilk", x16)
    .add 130 (.ein [(129, [0, 1, 2, 3])] [1, 0, 3, 2]) 1 1,
    -- 1992: x418 = np.zeros((nocc[0], nocc[0], nocc[0], nocc[0]), dtype=types[float])
    .zeros 131 [0, 0, 0, 0],
    -- 1993: x418 += einsum("ijkl->jilk", x16)
    .add 131 (.ein [(129, [0, 1, 2, 3])] [1, 0, 3, 2]) 1 1,
    -- 1994: del x16
    .del 129,
    -- 1995: x17 = np.zeros((nocc[0], nocc[0], nocc[0], nvir[0]), dtype=types[float])
    .zeros 132 [0, 0, 0, 1],
    -- 1996: x17 += einsum("ia,jbka->ijkb", t1.aa, v.aaaa.ovov)
    .add 132 (.ein [(13, [0, 1]), (23, [2, 3, 4, 1])] [0, 2, 4, 3]) 1 1,
    -- 1997: x18 = np.zeros((nocc[0], nocc[0], nocc[0], nocc[0]), dtype=types[float])
    .zeros 133 [0, 0, 0, 0],
    -- 1998: x18 += einsum("ia,jkla->ijkl", t1.aa, x17)
    .add 133 (.ein [(13, [0, 1]), (132, [2, 3, 4, 1])] [0, 2, 3, 4]) 1 1,
    -- 1999: x19 += einsum("ijkl->ijkl", x18)
    .add 130 (.ein [(133, [0, 1, 2, 3])] [0, 1, 2, 3]) 1 1,
    -- 2000: x20 = np.zeros((nocc[0], nocc[0], nocc[0], nvir[0]), dtype=types[float])
    .zeros 134 [0, 0, 0, 1],
    -- 2001: x20 += einsum("ia,jkil->jkla", t1.aa, x19)
    .add 134 (.ein [(13, [0, 1]), (130, [2, 3, 0, 4])] [2, 3, 4, 1]) 1 1,
    -- 2002: del x19
    .del 130,
    -- 2003: x21 += einsum("ijka->jika", x20)
    .add 110 (.ein [(134, [0, 1, 2, 3])] [1, 0, 2, 3]) 1 1,
    -- 2004: del x20
    .del 134,
    -- 2005: x32 += einsum("ijka->jkia", x21)
    .add 108 (.ein [(110, [0, 1, 2, 3])] [1, 2, 0, 3]) 1 1,
    -- 2006: x32 += einsum("ijka->ikja", x21) * -1
    .add 108 (.ein [(110, [0, 1, 2, 3])] [0, 2, 1, 3]) (-1) 1,
    -- 2007: del x21
    .del 110,
    -- 2008: x418 += einsum("ijkl->ijkl", x18)
    .add 131 (.ein [(133, [0, 1, 2, 3])] [0, 1, 2, 3]) 1 1,
    -- 2009: del x18
    .del 133,
    -- 2010: x419 = np.zeros((nocc[0], nocc[0], nvir[0], nvir[0]), dtype=types[float])
    .zeros 135 [0, 0, 1, 1],
    -- 2011: x419 += einsum("abij,ijkl->klab", l2.aaaa, x418)
    .add 135 (.ein [(26, [0, 1, 2, 3]), (131, [2, 3, 4, 5])] [4, 5, 0, 1]) 1 1,
    -- 2012: del x418
    .del 131,
    -- 2013: x422 = np.zeros((nocc[0], nocc[0], nvir[0], nvir[0]), dtype=types[float])
    .zeros 136 [0, 0, 1, 1],
    -- 2014: x422 += einsum("ijab->jiba", x419)
    .add 136 (.ein [(135, [0, 1, 2, 3])] [1, 0, 3, 2]) 1 1,
    -- 2015: del x419
    .del 135,
    -- 2016: x22 = np.zeros((nocc[0], nocc[0], nocc[0], nvir[0]), dtype=types[float])
    .zeros 137 [0, 0, 0, 1],
    -- 2017: x22 += einsum("ijka->ikja", x17) * -1
    .add 137 (.ein [(132, [0, 1, 2, 3])] [0, 2, 1, 3]) (-1) 1,
    -- 2018: x22 += einsum("ijka->ijka", x17)
    .add 137 (.ein [(132, [0, 1, 2, 3])] [0, 1, 2, 3]) 1 1,
    -- 2019: x37 = np.zeros((nocc[0], nocc[0], nocc[0], nvir[0]), dtype=types[float])
    .zeros 138 [0, 0, 0, 1],
    -- 2020: x37 += einsum("ijka->jkia", x17)
    .add 138 (.ein [(132, [0, 1, 2, 3])] [1, 2, 0, 3]) 1 1,
    -- 2021: x37 += einsum("ijka->kjia", x17) * -1
    .add 138 (.ein [(132, [0, 1, 2, 3])] [2, 1, 0, 3]) (-1) 1,
    -- 2022: x86 = np.zeros((nocc[0], nocc[0], nocc[0], nvir[0]), dtype=types[float])
    .zeros 139 [0, 0, 0, 1],
    -- 2023: x86 += einsum("ijka->jkia", x17) * -1
    .add 139 (.ein [(132, [0, 1, 2, 3])] [1, 2, 0, 3]) (-1) 1,
    -- 2024: x86 += einsum("ijka->kjia", x17)
    .add 139 (.ein [(132, [0, 1, 2, 3])] [2, 1, 0, 3]) 1 1,
    -- 2025: x386 = np.zeros((nocc[0], nocc[0], nocc[0], nvir[0]), dtype=types[float])
    .zeros 140 [0, 0, 0, 1],
    -- 2026: x386 += einsum("ijka->ijka", x17)
    .add 140 (.ein [(132, [0, 1, 2, 3])] [0, 1, 2, 3]) 1 1,
    -- 2027: x395 = np.zeros((nocc[0], nocc[0], nocc[0], nvir[0]), dtype=types[float])
    .zeros 141 [0, 0, 0, 1],
    -- 2028: x395 += einsum("ijka->ikja", x17)
    .add 141 (.ein [(132, [0, 1, 2, 3])] [0, 2, 1, 3]) 1 1,
    -- 2029: x395 += einsum("ijka->ijka", x17) * -1
    .add 141 (.ein [(132, [0, 1, 2, 3])] [0, 1, 2, 3]) (-1) 1,
    -- 2030: x535 = np.zeros((nocc[0], nocc[0], nocc[0], nvir[0]), dtype=types[float])
    .zeros 142 [0, 0, 0, 1],
    -- 2031: x535 += einsum("ijka->ikja", x17) * -1
    .add 142 (.ein [(132, [0, 1, 2, 3])] [0, 2, 1, 3]) (-1) 1,
    -- 2032: x535 += einsum("ijka->ijka", x17)
    .add 142 (.ein [(132, [0, 1, 2, 3])] [0, 1, 2, 3]) 1 1,
    -- 2033: del x17
    .del 132,
    -- 2034: x22 += einsum("ijka->jkia", v.aaaa.ooov)
    .add 137 (.ein [(27, [0, 1, 2, 3])] [1, 2, 0, 3]) 1 1,
    -- 2035: x22 += einsum("ijka->jika", v.aaaa.ooov) * -1
    .add 137 (.ein [(27, [0, 1, 2, 3])] [1, 0, 2, 3]) (-1) 1,
    -- 2036: x23 = np.zeros((nocc[0], nocc[0], nvir[0], nvir[0]), dtype=types[float])
    .zeros 143 [0, 0, 1, 1],
    -- 2037: x23 += einsum("ijab->jiab", t2.aaaa) * -1
    .add 143 (.ein [(20, [0, 1, 2, 3])] [1, 0, 2, 3]) (-1) 1,
    -- 2038: x23 += einsum("ijab->jiba", t2.aaaa)
    .add 143 (.ein [(20, [0, 1, 2, 3])] [1, 0, 3, 2]) 1 1,
    -- 2039: x24 = np.zeros((nocc[0], nocc[0], nocc[0], nvir[0]), dtype=types[float])
    .zeros 144 [0, 0, 0, 1],
    -- 2040: x24 += einsum("ijka,klba->ijlb", x22, x23)
    .add 144 (.ein [(137, [0, 1, 2, 3]), (143, [2, 4, 5, 3])] [0, 1, 4, 5]) 1 1,
    -- 2041: del x22
    .del 137,
    -- 2042: x32 += einsum("ijka->ijka", x24)
    .add 108 (.ein [(144, [0, 1, 2, 3])] [0, 1, 2, 3]) 1 1,
    -- 2043: x51 = np.zeros((nocc[0], nocc[0], nocc[0], nvir[0]), dtype=types[float])
    .zeros 145 [0, 0, 0, 1],
    -- 2044: x51 += einsum("ijka->ijka", x24)
    .add 145 (.ein [(144, [0, 1, 2, 3])] [0, 1, 2, 3]) 1 1,
    -- 2045: del x24
    .del 144,
    -- 2046: x85 = np.zeros((nocc[0], nvir[0]), dtype=types[float])
    .zeros 146 [0, 1],
    -- 2047: x85 += einsum("iabc,ijca->jb", v.aaaa.ovvv, x23)
    .add 146 (.ein [(22, [0, 1, 2, 3]), (143, [0, 4, 3, 1])] [4, 2]) 1 1,
    -- 2048: x121 = np.zeros((nocc[0], nvir[0]), dtype=types[float])
    .zeros 147 [0, 1],
    -- 2049: x121 += einsum("ia->ia", x85) * -1
    .add 147 (.ein [(146, [0, 1])] [0, 1]) (-1) 1,
    -- 2050: del x85
    .del 146,
    -- 2051: x105 = np.zeros((nocc[0], nocc[0]), dtype=types[float])
    .zeros 148 [0, 0],
    -- 2052: x105 += einsum("iajb,ikba->jk", v.aaaa.ovov, x23)
    .add 148 (.ein [(23, [0, 1, 2, 3]), (143, [0, 4, 3, 1])] [2, 4]) 1 1,
    -- 2053: x109 = np.zeros((nocc[0], nocc[0]), dtype=types[float])
    .zeros 149 [0, 0],
    -- 2054: x109 += einsum("ij->ij", x105) * -1
    .add 149 (.ein [(148, [0, 1])] [0, 1]) (-1) 1,
    -- 2055: x405 += einsum("ij->ji", x105) * -1
    .add 120 (.ein [(148, [0, 1])] [1, 0]) (-1) 1,
    -- 2056: del x105
    .del 148,
    -- 2057: x166 = np.zeros((nocc[0], nvir[0]), dtype=types[float])
    .zeros 150 [0, 1],
    -- 2058: x166 += einsum("ai,ijab->jb", l1.aa, x23)
    .add 150 (.ein [(28, [0, 1]), (143, [1, 2, 0, 3])] [2, 3]) 1 1,
    -- 2059: x178 = np.zeros((nocc[0], nvir[0]), dtype=types[float])
    .zeros 151 [0, 1],
    -- 2060: x178 += einsum("ia->ia", x166) * -1
    .add 151 (.ein [(150, [0, 1])] [0, 1]) (-1) 1,
    -- 2061: del x166
    .del 150,
    -- 2062: x175 = np.zeros((nocc[0], nocc[0]), dtype=types[float])
    .zeros 152 [0, 0],
    -- 2063: x175 += einsum("abij,ikba->jk", l2.aaaa, x23)
    .add 152 (.ein [(26, [0, 1, 2, 3]), (143, [2, 4, 1, 0])] [3, 4]) 1 1,
    -- 2064: x176 = np.zeros((nocc[0], nocc[0]), dtype=types[float])
    .zeros 153 [0, 0],
    -- 2065: x176 += einsum("ij->ij", x175) * -1
    .add 153 (.ein [(152, [0, 1])] [0, 1]) (-1) 1,
    -- 2066: x411 = np.zeros((nocc[0], nocc[0]), dtype=types[float])
    .zeros 154 [0, 0],
    -- 2067: x411 += einsum("ij->ij", x175) * -1
    .add 154 (.ein [(152, [0, 1])] [0, 1]) (-1) 1,
    -- 2068: del x175
    .del 152,
    -- 2069: x184 = np.zeros((nvir[0], nvir[0]), dtype=types[float])
    .zeros 155 [1, 1],
    -- 2070: x184 += einsum("abij,ijbc->ac", l2.aaaa, x23)
    .add 155 (.ein [(26, [0, 1, 2, 3]), (143, [2, 3, 1, 4])] [0, 4]) 1 1,
    -- 2071: x185 = np.zeros((nvir[0], nvir[0]), dtype=types[float])
    .zeros 156 [1, 1],
    -- 2072: x185 += einsum("ab->ab", x184) * -1
    .add 156 (.ein [(155, [0, 1])] [0, 1]) (-1) 1,
    -- 2073: x402 = np.zeros((nvir[0], nvir[0]), dtype=types[float])
    .zeros 157 [1, 1],
    -- 2074: x402 += einsum("ab->ab", x184) * -1
    .add 157 (.ein [(155, [0, 1])] [0, 1]) (-1) 1,
    -- 2075: x548 = np.zeros((nvir[0], nvir[0]), dtype=types[float])
    .zeros 158 [1, 1],
    -- 2076: x548 += einsum("ab->ab", x184) * -1
    .add 158 (.ein [(155, [0, 1])] [0, 1]) (-1) 1,
    -- 2077: del x184
    .del 155,
    -- 2078: x214 = np.zeros((nocc[0], nocc[0]), dtype=types[float])
    .zeros 159 [0, 0],
    -- 2079: x214 += einsum("abij,ikba->jk", l2.aaaa, x23) * 2
    .add 159 (.ein [(26, [0, 1, 2, 3]), (143, [2, 4, 1, 0])] [3, 4]) 2 1,
    -- 2080: x215 = np.zeros((nocc[0], nocc[0]), dtype=types[float])
    .zeros 160 [0, 0],
    -- 2081: x215 += einsum("ij->ij", x214) * -1
    .add 160 (.ein [(159, [0, 1])] [0, 1]) (-1) 1,
    -- 2082: del x214
    .del 159,
    -- 2083: x297 = np.zeros((nocc[0], nocc[1], nvir[0], nvir[1]), dtype=types[float])
    .zeros 161 [0, 4, 1, 5],
    -- 2084: x297 += einsum("abij,ikac->kjcb", l2.abab, x23) * -2
    .add 161 (.ein [(8, [0, 1, 2, 3]), (143, [2, 4, 0, 5])] [4, 3, 5, 1]) (-2) 1,
    -- 2085: x301 += einsum("ijka,ilab->ljkb", x1, x23) * -1
    .add 89 (.ein [(86, [0, 1, 2, 3]), (143, [0, 4, 3, 5])] [4, 1, 2, 5]) (-1) 1,
    -- 2086: x324 = np.zeros((nvir[0], nvir[0]), dtype=types[float])
    .zeros 162 [1, 1],
    -- 2087: x324 += einsum("abij,ijbc->ac", l2.aaaa, x23) * 2
    .add 162 (.ein [(26, [0, 1, 2, 3]), (143, [2, 3, 1, 4])] [0, 4]) 2 1,
    -- 2088: x325 = np.zeros((nvir[0], nvir[0]), dtype=types[float])
    .zeros 163 [1, 1],
    -- 2089: x325 += einsum("ab->ab", x324) * -1
    .add 163 (.ein [(162, [0, 1])] [0, 1]) (-1) 1,
    -- 2090: x567 = np.zeros((nvir[0], nvir[0]), dtype=types[float])
    .zeros 164 [1, 1],
    -- 2091: x567 += einsum("ab->ab", x324) * -1
    .add 164 (.ein [(162, [0, 1])] [0, 1]) (-1) 1,
    -- 2092: del x324
    .del 162,
    -- 2093: x408 = np.zeros((nvir[0], nvir[0]), dtype=types[float])
    .zeros 165 [1, 1],
    -- 2094: x408 += einsum("iajb,ijbc->ac", v.aaaa.ovov, x23)
    .add 165 (.ein [(23, [0, 1, 2, 3]), (143, [0, 2, 3, 4])] [1, 4]) 1 1,
    -- 2095: x409 = np.zeros((nvir[0], nvir[0]), dtype=types[float])
    .zeros 166 [1, 1],
    -- 2096: x409 += einsum("ab->ba", x408) * -1
    .add 166 (.ein [(165, [0, 1])] [1, 0]) (-1) 1,
    -- 2097: del x408
    .del 165,
    -- 2098: x25 = np.zeros((nocc[0], nocc[0], nocc[1], nvir[1]), dtype=types[float])
    .zeros 167 [0, 0, 4, 5],
    -- 2099: x25 += einsum("ia,jakb->ijkb", t1.aa, v.aabb.ovov)
    .add 167 (.ein [(13, [0, 1]), (14, [2, 1, 3, 4])] [0, 2, 3, 4]) 1 1,
    -- 2100: x26 = np.zeros((nocc[0], nocc[0], nocc[1], nvir[1]), dtype=types[float])
    .zeros 168 [0, 0, 4, 5],
    -- 2101: x26 += einsum("ijka->jika", x25)
    .add 168 (.ein [(167, [0, 1, 2, 3])] [1, 0, 2, 3]) 1 1,
    -- 2102: x559 = np.zeros((nocc[0], nocc[0], nocc[1], nvir[1]), dtype=types[float])
    .zeros 169 [0, 0, 4, 5],
    -- 2103: x559 += einsum("ijka->jika", x25)
    .add 169 (.ein [(167, [0, 1, 2, 3])] [1, 0, 2, 3]) 1 1,
    -- 2104: x26 += einsum("ijka->ijka", v.aabb.ooov)
    .add 168 (.ein [(11, [0, 1, 2, 3])] [0, 1, 2, 3]) 1 1,
    -- 2105: x27 = np.zeros((nocc[0], nocc[0], nocc[0], nvir[0]), dtype=types[float])
    .zeros 170 [0, 0, 0, 1],
    -- 2106: x27 += einsum("ijab,kljb->ikla", t2.abab, x26)
    .add 170 (.ein [(9, [0, 1, 2, 3]), (168, [4, 5, 1, 3])] [0, 4, 5, 2]) 1 1,
    -- 2107: x32 += einsum("ijka->kjia", x27)
    .add 108 (.ein [(170, [0, 1, 2, 3])] [2, 1, 0, 3]) 1 1,
    -- 2108: x51 += einsum("ijka->kjia", x27)
    .add 145 (.ein [(170, [0, 1, 2, 3])] [2, 1, 0, 3]) 1 1,
    -- 2109: del x27
    .del 170,
    -- 2110: x77 = np.zeros((nbos, nbos, nocc[0], nocc[0]), dtype=types[float])
    .zeros 171 [2, 2, 0, 0],
    -- 2111: x77 += einsum("wxia,jkia->xwjk", u12.bb, x26)
    .add 171 (.ein [(29, [0, 1, 2, 3]), (168, [4, 5, 2, 3])] [1, 0, 4, 5]) 1 1,
    -- 2112: x88 = np.zeros((nocc[0], nvir[0]), dtype=types[float])
    .zeros 172 [0, 1],
    -- 2113: x88 += einsum("ijab,ikjb->ka", t2.abab, x26)
    .add 172 (.ein [(9, [0, 1, 2, 3]), (168, [0, 4, 1, 3])] [4, 2]) 1 1,
    -- 2114: x121 += einsum("ia->ia", x88) * -1
    .add 147 (.ein [(172, [0, 1])] [0, 1]) (-1) 1,
    -- 2115: del x88
    .del 172,
    -- 2116: x293 = np.zeros((nocc[0], nocc[1], nocc[1], nvir[0]), dtype=types[float])
    .zeros 173 [0, 4, 4, 1],
    -- 2117: x293 += einsum("ijab,iklb->klja", t2.abab, x26) * -1
    .add 173 (.ein [(9, [0, 1, 2, 3]), (168, [0, 4, 5, 3])] [4, 5, 1, 2]) (-1) 1,
    -- 2118: x534 = np.zeros((nocc[0], nocc[1], nvir[0], nvir[1]), dtype=types[float])
    .zeros 174 [0, 4, 1, 5],
    -- 2119: x534 += einsum("ijka,likb->ljab", x1, x26)
    .add 174 (.ein [(86, [0, 1, 2, 3]), (168, [4, 0, 2, 5])] [4, 1, 3, 5]) 1 1,
    -- 2120: l2new_baba += einsum("ijab->baji", x534)
    .add 91 (.ein [(174, [0, 1, 2, 3])] [3, 2, 1, 0]) 1 1,
    -- 2121: l2new_abab += einsum("ijab->abij", x534)
    .add 92 (.ein [(174, [0, 1, 2, 3])] [2, 3, 0, 1]) 1 1,
    -- 2122: del x534
    .del 174,
    -- 2123: x28 = np.zeros((nocc[0], nocc[0], nvir[0], nvir[0]), dtype=types[float])
    .zeros 175 [0, 0, 1, 1],
    -- 2124: x28 += einsum("iabj->ijba", v.aaaa.ovvo)
    .add 175 (.ein [(30, [0, 1, 2, 3])] [0, 3, 2, 1]) 1 1,
    -- 2125: x28 += einsum("ijab->ijab", v.aaaa.oovv) * -1
    .add 175 (.ein [(31, [0, 1, 2, 3])] [0, 1, 2, 3]) (-1) 1,
    -- 2126: x29 = np.zeros((nocc[0], nocc[0], nocc[0], nvir[0]), dtype=types[float])
    .zeros 176 [0, 0, 0, 1],
    -- 2127: x29 += einsum("ia,jkba->ijkb", t1.aa, x28)
    .add 176 (.ein [(13, [0, 1]), (175, [2, 3, 4, 1])] [0, 2, 3, 4]) 1 1,
    -- 2128: x32 += einsum("ijka->ijka", x29)
    .add 108 (.ein [(176, [0, 1, 2, 3])] [0, 1, 2, 3]) 1 1,
    -- 2129: x51 += einsum("ijka->ijka", x29)
    .add 145 (.ein [(176, [0, 1, 2, 3])] [0, 1, 2, 3]) 1 1,
    -- 2130: del x29
    .del 176,
    -- 2131: x97 = np.zeros((nocc[0], nvir[0]), dtype=types[float])
    .zeros 177 [0, 1],
    -- 2132: x97 += einsum("ia,ijba->jb", t1.aa, x28)
    .add 177 (.ein [(13, [0, 1]), (175, [0, 2, 3, 1])] [2, 3]) 1 1,
    -- 2133: x121 += einsum("ia->ia", x97)
    .add 147 (.ein [(177, [0, 1])] [0, 1]) 1 1,
    -- 2134: del x97
    .del 177,
    -- 2135: x575 = np.zeros((nbos, nocc[0], nvir[0]), dtype=types[float])
    .zeros 178 [2, 0, 1],
    -- 2136: x575 += einsum("wia,ijba->wjb", u11.aa, x28) * -1
    .add 178 (.ein [(24, [0, 1, 2]), (175, [1, 3, 4, 2])] [0, 3, 4]) (-1) 1,
    -- 2137: x30 = np.zeros((nocc[0], nocc[0], nocc[0], nocc[0]), dtype=types[float])
    .zeros 179 [0, 0, 0, 0],
    -- 2138: x30 += einsum("ia,jkla->ijlk", t1.aa, v.aaaa.ooov)
    .add 179 (.ein [(13, [0, 1]), (27, [2, 3, 4, 1])] [0, 2, 4, 3]) 1 1,
    -- 2139: x31 = np.zeros((nocc[0], nocc[0], nocc[0], nocc[0]), dtype=types[float])
    .zeros 180 [0, 0, 0, 0],
    -- 2140: x31 += einsum("ijkl->jkil", x30)
    .add 180 (.ein [(179, [0, 1, 2, 3])] [1, 2, 0, 3]) 1 1,
    -- 2141: x31 += einsum("ijkl->kjil", x30) * -1
    .add 180 (.ein [(179, [0, 1, 2, 3])] [2, 1, 0, 3]) (-1) 1,
    -- 2142: x50 = np.zeros((nocc[0], nocc[0], nocc[0], nocc[0]), dtype=types[float])
    .zeros 181 [0, 0, 0, 0],
    -- 2143: x50 += einsum("ijkl->ikjl", x30) * -1
    .add 181 (.ein [(179, [0, 1, 2, 3])] [0, 2, 1, 3]) (-1) 1,
    -- 2144: x50 += einsum("ijkl->ijkl", x30)
    .add 181 (.ein [(179, [0, 1, 2, 3])] [0, 1, 2, 3]) 1 1,
    -- 2145: x51 += einsum("ia,jikl->jkla", t1.aa, x50) * -1
    .add 145 (.ein [(13, [0, 1]), (181, [2, 0, 3, 4])] [2, 3, 4, 1]) (-1) 1,
    -- 2146: del x50
    .del 181,
    -- 2147: l1new_aa += einsum("abij,ikjb->ak", l2.aaaa, x51) * -1
    .add 84 (.ein [(26, [0, 1, 2, 3]), (145, [2, 4, 3, 1])] [0, 4]) (-1) 1,
    -- 2148: del x51
    .del 145,
    -- 2149: x351 = np.zeros((nocc[0], nocc[0], nvir[0], nvir[0]), dtype=types[float])
    .zeros 182 [0, 0, 1, 1],
    -- 2150: x351 += einsum("abij,jkli->klba", l2.aaaa, x30)
    .add 182 (.ein [(26, [0, 1, 2, 3]), (179, [3, 4, 5, 2])] [4, 5, 1, 0]) 1 1,
    -- 2151: del x30
    .del 179,
    -- 2152: x390 -= einsum("ijab->ijab", x351)
    .add 98 (.ein [(182, [0, 1, 2, 3])] [0, 1, 2, 3]) (-1) 1,
    -- 2153: del x351
    .del 182,
    -- 2154: x31 += einsum("ijkl->kijl", v.aaaa.oooo)
    .add 180 (.ein [(32, [0, 1, 2, 3])] [2, 0, 1, 3]) 1 1,
    -- 2155: x31 += einsum("ijkl->kilj", v.aaaa.oooo) * -1
    .add 180 (.ein [(32, [0, 1, 2, 3])] [2, 0, 3, 1]) (-1) 1,
    -- 2156: x32 += einsum("ia,ijkl->kjla", t1.aa, x31) * -1
    .add 108 (.ein [(13, [0, 1]), (180, [0, 2, 3, 4])] [3, 2, 4, 1]) (-1) 1,
    -- 2157: del x31
    .del 180,
    -- 2158: l1new_aa += einsum("abij,ikja->bk", l2.aaaa, x32)
    .add 84 (.ein [(26, [0, 1, 2, 3]), (108, [2, 4, 3, 0])] [1, 4]) 1 1,
    -- 2159: del x32
    .del 108,
    -- 2160: x33 = np.zeros((nocc[0], nocc[0], nvir[0], nvir[0]), dtype=types[float])
    .zeros 183 [0, 0, 1, 1],
    -- 2161: x33 += einsum("abij,kjcb->ikac", l2.abab, t2.abab)
    .add 183 (.ein [(8, [0, 1, 2, 3]), (9, [4, 3, 5, 1])] [2, 4, 0, 5]) 1 1,
    -- 2162: x35 = np.zeros((nocc[0], nocc[0], nvir[0], nvir[0]), dtype=types[float])
    .zeros 184 [0, 0, 1, 1],
    -- 2163: x35 += einsum("ijab->ijab", x33)
    .add 184 (.ein [(183, [0, 1, 2, 3])] [0, 1, 2, 3]) 1 1,
    -- 2164: x34 = np.zeros((nocc[0], nocc[0], nvir[0], nvir[0]), dtype=types[float])
    .zeros 185 [0, 0, 1, 1],
    -- 2165: x34 += einsum("abij->jiab", l2.aaaa) * -1
    .add 185 (.ein [(26, [0, 1, 2, 3])] [3, 2, 0, 1]) (-1) 1,
    -- 2166: x34 += einsum("abij->jiba", l2.aaaa)
    .add 185 (.ein [(26, [0, 1, 2, 3])] [3, 2, 1, 0]) 1 1,
    -- 2167: x35 += einsum("ijab,ikac->kjcb", x23, x34)
    .add 184 (.ein [(143, [0, 1, 2, 3]), (185, [0, 4, 2, 5])] [4, 1, 5, 3]) 1 1,
    -- 2168: x53 += einsum("ijab,ikac->kjcb", t2.abab, x34) * -1
    .add 93 (.ein [(9, [0, 1, 2, 3]), (185, [0, 4, 2, 5])] [4, 1, 5, 3]) (-1) 1,
    -- 2169: x35 += einsum("wxai,wxjb->ijab", lu12.aa, u12.aa) * 0.5
    .add 184 (.ein [(33, [0, 1, 2, 3]), (25, [0, 1, 4, 5])] [3, 4, 2, 5]) 1 2,
    -- 2170: x36 = np.zeros((nocc[0], nvir[0], nvir[0], nvir[0]), dtype=types[float])
    .zeros 186 [0, 1, 1, 1],
    -- 2171: x36 += einsum("iabc->ibac", v.aaaa.ovvv)
    .add 186 (.ein [(22, [0, 1, 2, 3])] [0, 2, 1, 3]) 1 1,
    -- 2172: x36 += einsum("iabc->ibca", v.aaaa.ovvv) * -1
    .add 186 (.ein [(22, [0, 1, 2, 3])] [0, 2, 3, 1]) (-1) 1,
    -- 2173: x512 = np.zeros((nocc[0], nocc[0], nvir[0], nvir[0]), dtype=types[float])
    .zeros 187 [0, 0, 1, 1],
    -- 2174: x512 += einsum("ia,jbac->ijbc", t1.aa, x36)
    .add 187 (.ein [(13, [0, 1]), (186, [2, 3, 1, 4])] [0, 2, 3, 4]) 1 1,
    -- 2175: x513 = np.zeros((nocc[0], nocc[0], nvir[0], nvir[0]), dtype=types[float])
    .zeros 188 [0, 0, 1, 1],
    -- 2176: x513 += einsum("ijab->jiab", x512) * -1
    .add 188 (.ein [(187, [0, 1, 2, 3])] [1, 0, 2, 3]) (-1) 1,
    -- 2177: del x512
    .del 187,
    -- 2178: l1new_aa += einsum("ijab,jacb->ci", x35, x36) * -1
    .add 84 (.ein [(184, [0, 1, 2, 3]), (186, [1, 2, 4, 3])] [4, 0]) (-1) 1,
    -- 2179: del x35
    .del 184,
    -- 2180: x37 += einsum("ijka->ikja", v.aaaa.ooov) * -1
    .add 138 (.ein [(27, [0, 1, 2, 3])] [0, 2, 1, 3]) (-1) 1,
    -- 2181: x37 += einsum("ijka->kija", v.aaaa.ooov)
    .add 138 (.ein [(27, [0, 1, 2, 3])] [2, 0, 1, 3]) 1 1,
    -- 2182: x49 = np.zeros((nocc[0], nocc[0], nocc[1], nvir[1]), dtype=types[float])
    .zeros 189 [0, 0, 4, 5],
    -- 2183: x49 += einsum("ijab,kila->kljb", t2.abab, x37) * -1
    .add 189 (.ein [(9, [0, 1, 2, 3]), (138, [4, 0, 5, 2])] [4, 5, 1, 3]) (-1) 1,
    -- 2184: x77 += einsum("wxia,jika->xwjk", u12.aa, x37) * -1
    .add 171 (.ein [(25, [0, 1, 2, 3]), (138, [4, 2, 5, 3])] [1, 0, 4, 5]) (-1) 1,
    -- 2185: del x37
    .del 138,
    -- 2186: x38 = np.zeros((nocc[1], nocc[1], nvir[1], nvir[1]), dtype=types[float])
    .zeros 190 [4, 4, 5, 5],
    -- 2187: x38 += einsum("ijab->jiab", t2.bbbb) * -1
    .add 190 (.ein [(34, [0, 1, 2, 3])] [1, 0, 2, 3]) (-1) 1,
    -- 2188: x38 += einsum("ijab->jiba", t2.bbbb)
    .add 190 (.ein [(34, [0, 1, 2, 3])] [1, 0, 3, 2]) 1 1,
    -- 2189: x49 += einsum("ijka,klba->ijlb", x26, x38) * -1
    .add 189 (.ein [(168, [0, 1, 2, 3]), (190, [2, 4, 5, 3])] [0, 1, 4, 5]) (-1) 1,
    -- 2190: x204 = np.zeros((nocc[1], nocc[1]), dtype=types[float])
    .zeros 191 [4, 4],
    -- 2191: x204 += einsum("abij,ikba->jk", l2.bbbb, x38)
    .add 191 (.ein [(35, [0, 1, 2, 3]), (190, [2, 4, 1, 0])] [3, 4]) 1 1,
    -- 2192: x205 = np.zeros((nocc[1], nocc[1]), dtype=types[float])
    .zeros 192 [4, 4],
    -- 2193: x205 += einsum("ij->ij", x204) * -1
    .add 192 (.ein [(191, [0, 1])] [0, 1]) (-1) 1,
    -- 2194: x488 = np.zeros((nocc[1], nocc[1]), dtype=types[float])
    .zeros 193 [4, 4],
    -- 2195: x488 += einsum("ij->ij", x204) * -1
    .add 193 (.ein [(191, [0, 1])] [0, 1]) (-1) 1,
    -- 2196: x576 = np.zeros((nocc[1], nocc[1]), dtype=types[float])
    .zeros 194 [4, 4],
    -- 2197: x576 += einsum("ij->ij", x204) * -1
    .add 194 (.ein [(191, [0, 1])] [0, 1]) (-1) 1,
    -- 2198: del x204
    .del 191,
    -- 2199: x212 = np.zeros((nvir[1], nvir[1]), dtype=types[float])
    .zeros 195 [5, 5],
    -- 2200: x212 += einsum("abij,ijbc->ac", l2.bbbb, x38)
    .add 195 (.ein [(35, [0, 1, 2, 3]), (190, [2, 3, 1, 4])] [0, 4]) 1 1,
    -- 2201: x213 = np.zeros((nvir[1], nvir[1]), dtype=types[float])
    .zeros 196 [5, 5],
    -- 2202: x213 += einsum("ab->ab", x212) * -1
    .add 196 (.ein [(195, [0, 1])] [0, 1]) (-1) 1,
    -- 2203: x478 = np.zeros((nvir[1], nvir[1]), dtype=types[float])
    .zeros 197 [5, 5],
    -- 2204: x478 += einsum("ab->ab", x212) * -1
    .add 197 (.ein [(195, [0, 1])] [0, 1]) (-1) 1,
    -- 2205: x547 = np.zeros((nvir[1], nvir[1]), dtype=types[float])
    .zeros 198 [5, 5],
    -- 2206: x547 += einsum("ab->ab", x212) * -1
    .add 198 (.ein [(195, [0, 1])] [0, 1]) (-1) 1,
    -- 2207: del x212
    .del 195,
    -- 2208: x224 = np.zeros((nocc[1], nocc[1]), dtype=types[float])
    .zeros 199 [4, 4],
    -- 2209: x224 += einsum("abij,ikba->jk", l2.bbbb, x38) * 2
    .add 199 (.ein [(35, [0, 1, 2, 3]), (190, [2, 4, 1, 0])] [3, 4]) 2 1,
    -- 2210: x225 = np.zeros((nocc[1], nocc[1]), dtype=types[float])
    .zeros 200 [4, 4],
    -- 2211: x225 += einsum("ij->ij", x224) * -1
    .add 200 (.ein [(199, [0, 1])] [0, 1]) (-1) 1,
    -- 2212: del x224
    .del 199,
    -- 2213: x510 = np.zeros((nocc[0], nocc[1], nvir[0], nvir[1]), dtype=types[float])
    .zeros 201 [0, 4, 1, 5],
    -- 2214: x510 += einsum("iajb,jkcb->ikac", v.aabb.ovov, x38)
    .add 201 (.ein [(14, [0, 1, 2, 3]), (190, [2, 4, 5, 3])] [0, 4, 1, 5]) 1 1,
    -- 2215: x511 += einsum("ijab->ijab", x510) * -1
    .add 128 (.ein [(201, [0, 1, 2, 3])] [0, 1, 2, 3]) (-1) 1,
    -- 2216: del x510
    .del 201,
    -- 2217: x566 = np.zeros((nvir[1], nvir[1]), dtype=types[float])
    .zeros 202 [5, 5],
    -- 2218: x566 += einsum("abij,ijbc->ac", l2.bbbb, x38) * -2
    .add 202 (.ein [(35, [0, 1, 2, 3]), (190, [2, 3, 1, 4])] [0, 4]) (-2) 1,
    -- 2219: x618 = np.zeros((nbos, nbos, nocc[1], nvir[1]), dtype=types[float])
    .zeros 203 [2, 2, 4, 5],
    -- 2220: x618 += einsum("wxai,ijba->wxjb", lu12.bb, x38)
    .add 203 (.ein [(36, [0, 1, 2, 3]), (190, [3, 4, 5, 2])] [0, 1, 4, 5]) 1 1,
    -- 2221: x619 = np.zeros((nbos, nbos, nocc[1], nvir[1]), dtype=types[float])
    .zeros 204 [2, 2, 4, 5],
    -- 2222: x619 += einsum("wxia->xwia", x618) * -1
    .add 204 (.ein [(203, [0, 1, 2, 3])] [1, 0, 2, 3]) (-1) 1,
    -- 2223: del x618
    .del 203,
    -- 2224: x39 = np.zeros((nocc[0], nocc[1], nocc[1], nvir[0]), dtype=types[float])
    .zeros 205 [0, 4, 4, 1],
    -- 2225: x39 += einsum("ia,jbka->jikb", t1.bb, v.aabb.ovov)
    .add 205 (.ein [(12, [0, 1]), (14, [2, 3, 4, 1])] [2, 0, 4, 3]) 1 1,
    -- 2226: x40 = np.zeros((nocc[0], nocc[1], nocc[1], nvir[0]), dtype=types[float])
    .zeros 206 [0, 4, 4, 1],
    -- 2227: x40 += einsum("ijka->ikja", x39)
    .add 206 (.ein [(205, [0, 1, 2, 3])] [0, 2, 1, 3]) 1 1,
    -- 2228: x44 = np.zeros((nocc[0], nocc[1], nocc[1], nvir[0]), dtype=types[float])
    .zeros 207 [0, 4, 4, 1],
    -- 2229: x44 += einsum("ijka->ikja", x39)
    .add 207 (.ein [(205, [0, 1, 2, 3])] [0, 2, 1, 3]) 1 1,
    -- 2230: x354 = np.zeros((nocc[0], nocc[0], nvir[0], nvir[0]), dtype=types[float])
    .zeros 208 [0, 0, 1, 1],
    -- 2231: x354 += einsum("ijka,ljkb->ilab", x1, x39)
    .add 208 (.ein [(86, [0, 1, 2, 3]), (205, [4, 1, 2, 5])] [0, 4, 3, 5]) 1 1,
    -- 2232: x390 -= einsum("ijab->ijab", x354)
    .add 98 (.ein [(208, [0, 1, 2, 3])] [0, 1, 2, 3]) (-1) 1,
    -- 2233: del x354
    .del 208,
    -- 2234: x561 = np.zeros((nocc[0], nocc[1], nocc[1], nvir[0]), dtype=types[float])
    .zeros 209 [0, 4, 4, 1],
    -- 2235: x561 += einsum("ijka->ikja", x39)
    .add 209 (.ein [(205, [0, 1, 2, 3])] [0, 2, 1, 3]) 1 1,
    -- 2236: x40 += einsum("iajk->ijka", v.aabb.ovoo)
    .add 206 (.ein [(10, [0, 1, 2, 3])] [0, 2, 3, 1]) 1 1,
    -- 2237: x49 += einsum("ijab,kjla->kilb", t2.abab, x40) * -1
    .add 189 (.ein [(9, [0, 1, 2, 3]), (206, [4, 1, 5, 2])] [4, 0, 5, 3]) (-1) 1,
    -- 2238: x133 = np.zeros((nocc[1], nvir[1]), dtype=types[float])
    .zeros 210 [4, 5],
    -- 2239: x133 += einsum("ijab,ijka->kb", t2.abab, x40)
    .add 210 (.ein [(9, [0, 1, 2, 3]), (206, [0, 1, 4, 2])] [4, 3]) 1 1,
    -- 2240: x159 = np.zeros((nocc[1], nvir[1]), dtype=types[float])
    .zeros 211 [4, 5],
    -- 2241: x159 += einsum("ia->ia", x133) * -1
    .add 211 (.ein [(210, [0, 1])] [0, 1]) (-1) 1,
    -- 2242: del x133
    .del 210,
    -- 2243: x281 = np.zeros((nocc[1], nocc[1], nocc[1], nvir[1]), dtype=types[float])
    .zeros 212 [4, 4, 4, 5],
    -- 2244: x281 += einsum("ijab,ikla->jklb", t2.abab, x40)
    .add 212 (.ein [(9, [0, 1, 2, 3]), (206, [0, 4, 5, 2])] [1, 4, 5, 3]) 1 1,
    -- 2245: x285 = np.zeros((nocc[1], nocc[1], nocc[1], nvir[1]), dtype=types[float])
    .zeros 213 [4, 4, 4, 5],
    -- 2246: x285 += einsum("ijka->kjia", x281)
    .add 213 (.ein [(212, [0, 1, 2, 3])] [2, 1, 0, 3]) 1 1,
    -- 2247: x295 = np.zeros((nocc[1], nocc[1], nocc[1], nvir[1]), dtype=types[float])
    .zeros 214 [4, 4, 4, 5],
    -- 2248: x295 += einsum("ijka->kjia", x281)
    .add 214 (.ein [(212, [0, 1, 2, 3])] [2, 1, 0, 3]) 1 1,
    -- 2249: del x281
    .del 212,
    -- 2250: x317 = np.zeros((nbos, nbos, nocc[1], nocc[1]), dtype=types[float])
    .zeros 215 [2, 2, 4, 4],
    -- 2251: x317 += einsum("wxia,ijka->xwjk", u12.aa, x40) * 0.5
    .add 215 (.ein [(25, [0, 1, 2, 3]), (206, [2, 4, 5, 3])] [1, 0, 4, 5]) 1 2,
    -- 2252: x527 = np.zeros((nocc[0], nocc[0], nocc[1], nocc[1]), dtype=types[float])
    .zeros 216 [0, 0, 4, 4],
    -- 2253: x527 += einsum("ia,jkla->ijkl", t1.aa, x40)
    .add 216 (.ein [(13, [0, 1]), (206, [2, 3, 4, 1])] [0, 2, 3, 4]) 1 1,
    -- 2254: x528 = np.zeros((nocc[0], nocc[0], nocc[1], nocc[1]), dtype=types[float])
    .zeros 217 [0, 0, 4, 4],
    -- 2255: x528 += einsum("ijkl->jikl", x527)
    .add 217 (.ein [(216, [0, 1, 2, 3])] [1, 0, 2, 3]) 1 1,
    -- 2256: del x527
    .del 216,
    -- 2257: x41 += einsum("ia->ia", f.aa.ov)
    .add 103 (.ein [(19, [0, 1])] [0, 1]) 1 1,
    -- 2258: x49 += einsum("ia,jkab->ijkb", x41, t2.abab)
    .add 189 (.ein [(103, [0, 1]), (9, [2, 3, 1, 4])] [0, 2, 3, 4]) 1 1,
    -- 2259: x77 += einsum("ia,wxja->xwij", x41, u12.aa)
    .add 171 (.ein [(103, [0, 1]), (25, [2, 3, 4, 1])] [3, 2, 0, 4]) 1 1,
    -- 2260: x108 = np.zeros((nocc[0], nocc[0]), dtype=types[float])
    .zeros 218 [0, 0],
    -- 2261: x108 += einsum("ia,ja->ij", t1.aa, x41)
    .add 218 (.ein [(13, [0, 1]), (103, [2, 1])] [0, 2]) 1 1,
    -- 2262: x109 += einsum("ij->ji", x108)
    .add 149 (.ein [(218, [0, 1])] [1, 0]) 1 1,
    -- 2263: del x108
    .del 218,
    -- 2264: x135 = np.zeros((nocc[1], nvir[1]), dtype=types[float])
    .zeros 219 [4, 5],
    -- 2265: x135 += einsum("ia,ijab->jb", x41, t2.abab)
    .add 219 (.ein [(103, [0, 1]), (9, [0, 2, 1, 3])] [2, 3]) 1 1,
    -- 2266: x159 += einsum("ia->ia", x135)
    .add 211 (.ein [(219, [0, 1])] [0, 1]) 1 1,
    -- 2267: del x135
    .del 219,
    -- 2268: x219 = np.zeros((nbos, nocc[0], nocc[0]), dtype=types[float])
    .zeros 220 [2, 0, 0],
    -- 2269: x219 += einsum("ia,wja->wji", x41, u11.aa)
    .add 220 (.ein [(103, [0, 1]), (24, [2, 3, 1])] [2, 3, 0]) 1 1,
    -- 2270: x223 = np.zeros((nbos, nocc[0], nocc[0]), dtype=types[float])
    .zeros 221 [2, 0, 0],
    -- 2271: x223 += einsum("wij->wji", x219)
    .add 221 (.ein [(220, [0, 1, 2])] [0, 2, 1]) 1 1,
    -- 2272: del x219
    .del 220,
    -- 2273: x233 = np.zeros((nbos, nbos), dtype=types[float])
    .zeros 222 [2, 2],
    -- 2274: x233 += einsum("ia,wxia->xw", x41, u12.aa) * 0.5
    .add 222 (.ein [(103, [0, 1]), (25, [2, 3, 0, 1])] [3, 2]) 1 2,
    -- 2275: x255 = np.zeros((nbos), dtype=types[float])
    .zeros 223 [2],
    -- 2276: x255 += einsum("ia,wia->w", x41, u11.aa)
    .add 223 (.ein [(103, [0, 1]), (24, [2, 0, 1])] [2]) 1 1,
    -- 2277: x258 = np.zeros((nbos), dtype=types[float])
    .zeros 224 [2],
    -- 2278: x258 += einsum("w->w", x255)
    .add 224 (.ein [(223, [0])] [0]) 1 1,
    -- 2279: del x255
    .del 223,
    -- 2280: x334 = np.zeros((nbos, nbos), dtype=types[float])
    .zeros 225 [2, 2],
    -- 2281: x334 += einsum("ia,wxia->xw", x41, u12.aa)
    .add 225 (.ein [(103, [0, 1]), (25, [2, 3, 0, 1])] [3, 2]) 1 1,
    -- 2282: lu11new_aa = np.zeros((nbos, nvir[0], nocc[0]), dtype=types[float])
    .zeros 226 [2, 1, 0],
    -- 2283: lu11new_aa += einsum("w,ia->wai", ls1, x41) * 2
    .add 226 (.ein [(37, [0]), (103, [1, 2])] [0, 2, 1]) 2 1,
    -- 2284: lu12new_aa = np.zeros((nbos, nbos, nvir[0], nocc[0]), dtype=types[float])
    .zeros 227 [2, 2, 1, 0],
    -- 2285: lu12new_aa += einsum("wx,ia->xwai", ls2, x41) * 2
    .add 227 (.ein [(38, [0, 1]), (103, [2, 3])] [1, 0, 3, 2]) 2 1,
    -- 2286: x42 = np.zeros((nocc[0], nocc[0], nocc[1], nocc[1]), dtype=types[float])
    .zeros 228 [0, 0, 4, 4],
    -- 2287: x42 += einsum("ia,jkla->jkil", t1.bb, v.aabb.ooov)
    .add 228 (.ein [(12, [0, 1]), (11, [2, 3, 4, 1])] [2, 3, 0, 4]) 1 1,
    -- 2288: x46 = np.zeros((nocc[0], nocc[0], nocc[1], nocc[1]), dtype=types[float])
    .zeros 229 [0, 0, 4, 4],
    -- 2289: x46 += einsum("ijkl->ijlk", x42)
    .add 229 (.ein [(228, [0, 1, 2, 3])] [0, 1, 3, 2]) 1 1,
    -- 2290: x528 += einsum("ijkl->ijlk", x42)
    .add 217 (.ein [(228, [0, 1, 2, 3])] [0, 1, 3, 2]) 1 1,
    -- 2291: del x42
    .del 228,
    -- 2292: x43 = np.zeros((nocc[0], nocc[0], nocc[1], nocc[1]), dtype=types[float])
    .zeros 230 [0, 0, 4, 4],
    -- 2293: x43 += einsum("ijab,kalb->ikjl", t2.abab, v.aabb.ovov)
    .add 230 (.ein [(9, [0, 1, 2, 3]), (14, [4, 2, 5, 3])] [0, 4, 1, 5]) 1 1,
    -- 2294: x46 += einsum("ijkl->jilk", x43)
    .add 229 (.ein [(230, [0, 1, 2, 3])] [1, 0, 3, 2]) 1 1,
    -- 2295: x528 += einsum("ijkl->jilk", x43)
    .add 217 (.ein [(230, [0, 1, 2, 3])] [1, 0, 3, 2]) 1 1,
    -- 2296: del x43
    .del 230,
    -- 2297: x44 += einsum("iajk->ijka", v.aabb.ovoo)
    .add 207 (.ein [(10, [0, 1, 2, 3])] [0, 2, 3, 1]) 1 1,
    -- 2298: x45 = np.zeros((nocc[0], nocc[0], nocc[1], nocc[1]), dtype=types[float])
    .zeros 231 [0, 0, 4, 4],
    -- 2299: x45 += einsum("ia,jkla->ijkl", t1.aa, x44)
    .add 231 (.ein [(13, [0, 1]), (207, [2, 3, 4, 1])] [0, 2, 3, 4]) 1 1,
    -- 2300: del x44
    .del 207,
    -- 2301: x46 += einsum("ijkl->jikl", x45)
    .add 229 (.ein [(231, [0, 1, 2, 3])] [1, 0, 2, 3]) 1 1,
    -- 2302: del x45
    .del 231,
    -- 2303: x46 += einsum("ijkl->ijkl", v.aabb.oooo)
    .add 229 (.ein [(39, [0, 1, 2, 3])] [0, 1, 2, 3]) 1 1,
    -- 2304: x49 += einsum("ia,jkil->jkla", t1.bb, x46) * -1
    .add 189 (.ein [(12, [0, 1]), (229, [2, 3, 0, 4])] [2, 3, 4, 1]) (-1) 1,
    -- 2305: x293 += einsum("ia,ijkl->jkla", t1.aa, x46) * -1
    .add 173 (.ein [(13, [0, 1]), (229, [0, 2, 3, 4])] [2, 3, 4, 1]) (-1) 1,
    -- 2306: del x46
    .del 229,
    -- 2307: x47 = np.zeros((nocc[0], nocc[1], nvir[0], nvir[1]), dtype=types[float])
    .zeros 232 [0, 4, 1, 5],
    -- 2308: x47 += einsum("ia,jbca->jibc", t1.bb, v.aabb.ovvv)
    .add 232 (.ein [(12, [0, 1]), (17, [2, 3, 4, 1])] [2, 0, 3, 4]) 1 1,
    -- 2309: x48 = np.zeros((nocc[0], nocc[1], nvir[0], nvir[1]), dtype=types[float])
    .zeros 233 [0, 4, 1, 5],
    -- 2310: x48 += einsum("ijab->ijab", x47)
    .add 233 (.ein [(232, [0, 1, 2, 3])] [0, 1, 2, 3]) 1 1,
    -- 2311: x361 = np.zeros((nocc[0], nocc[1], nvir[0], nvir[1]), dtype=types[float])
    .zeros 234 [0, 4, 1, 5],
    -- 2312: x361 += einsum("ijab->ijab", x47)
    .add 234 (.ein [(232, [0, 1, 2, 3])] [0, 1, 2, 3]) 1 1,
    -- 2313: x511 += einsum("ijab->ijab", x47)
    .add 128 (.ein [(232, [0, 1, 2, 3])] [0, 1, 2, 3]) 1 1,
    -- 2314: x620 = np.zeros((nocc[0], nocc[1], nvir[0], nvir[1]), dtype=types[float])
    .zeros 235 [0, 4, 1, 5],
    -- 2315: x620 += einsum("ijab->ijab", x47)
    .add 235 (.ein [(232, [0, 1, 2, 3])] [0, 1, 2, 3]) 1 1,
    -- 2316: del x47
    .del 232,
    -- 2317: x48 += einsum("iabj->ijab", v.aabb.ovvo)
    .add 233 (.ein [(40, [0, 1, 2, 3])] [0, 3, 1, 2]) 1 1,
    -- 2318: x49 += einsum("ia,jkab->jikb", t1.aa, x48)
    .add 189 (.ein [(13, [0, 1]), (233, [2, 3, 1, 4])] [2, 0, 3, 4]) 1 1,
    -- 2319: x49 += einsum("ijak->ijka", v.aabb.oovo)
    .add 189 (.ein [(41, [0, 1, 2, 3])] [0, 1, 3, 2]) 1 1,
    -- 2320: x49 += einsum("ia,jkba->jkib", t1.bb, v.aabb.oovv)
    .add 189 (.ein [(12, [0, 1]), (42, [2, 3, 4, 1])] [2, 3, 0, 4]) 1 1,
    -- 2321: x49 += einsum("ijab,kacb->kijc", t2.abab, v.aabb.ovvv)
    .add 189 (.ein [(9, [0, 1, 2, 3]), (17, [4, 2, 5, 3])] [4, 0, 1, 5]) 1 1,
    -- 2322: l1new_aa += einsum("abij,kijb->ak", l2.abab, x49) * -1
    .add 84 (.ein [(8, [0, 1, 2, 3]), (189, [4, 2, 3, 1])] [0, 4]) (-1) 1,
    -- 2323: del x49
    .del 189,
    -- 2324: x52 = np.zeros((nocc[1], nocc[1], nvir[1], nvir[1]), dtype=types[float])
    .zeros 236 [4, 4, 5, 5],
    -- 2325: x52 += einsum("ijab->jiab", t2.bbbb)
    .add 236 (.ein [(34, [0, 1, 2, 3])] [1, 0, 2, 3]) 1 1,
    -- 2326: x52 += einsum("ijab->jiba", t2.bbbb) * -1
    .add 236 (.ein [(34, [0, 1, 2, 3])] [1, 0, 3, 2]) (-1) 1,
    -- 2327: x53 += einsum("abij,jkcb->ikac", l2.abab, x52) * -1
    .add 93 (.ein [(8, [0, 1, 2, 3]), (236, [3, 4, 5, 1])] [2, 4, 0, 5]) (-1) 1,
    -- 2328: x129 = np.zeros((nocc[1], nvir[1]), dtype=types[float])
    .zeros 237 [4, 5],
    -- 2329: x129 += einsum("iabc,ijac->jb", v.bbbb.ovvv, x52)
    .add 237 (.ein [(43, [0, 1, 2, 3]), (236, [0, 4, 1, 3])] [4, 2]) 1 1,
    -- 2330: x159 += einsum("ia->ia", x129) * -1
    .add 211 (.ein [(237, [0, 1])] [0, 1]) (-1) 1,
    -- 2331: del x129
    .del 237,
    -- 2332: x195 = np.zeros((nocc[1], nvir[1]), dtype=types[float])
    .zeros 238 [4, 5],
    -- 2333: x195 += einsum("ai,ijba->jb", l1.bb, x52)
    .add 238 (.ein [(44, [0, 1]), (236, [1, 2, 3, 0])] [2, 3]) 1 1,
    -- 2334: x207 += einsum("ia->ia", x195) * -1
    .add 95 (.ein [(238, [0, 1])] [0, 1]) (-1) 1,
    -- 2335: del x195
    .del 238,
    -- 2336: x53 += einsum("wxai,wxjb->ijab", lu12.aa, u12.bb) * -0.5
    .add 93 (.ein [(33, [0, 1, 2, 3]), (29, [0, 1, 4, 5])] [3, 4, 2, 5]) (-1) 2,
    -- 2337: l1new_aa += einsum("iabc,jiba->cj", v.bbaa.ovvv, x53) * -1
    .add 84 (.ein [(15, [0, 1, 2, 3]), (93, [4, 0, 2, 1])] [3, 4]) (-1) 1,
    -- 2338: del x53
    .del 93,
    -- 2339: x54 = np.zeros((nbos, nbos, nocc[0], nocc[0]), dtype=types[float])
    .zeros 239 [2, 2, 0, 0],
    -- 2340: x54 += einsum("ia,wxaj->wxji", t1.aa, lu12.aa)
    .add 239 (.ein [(13, [0, 1]), (33, [2, 3, 1, 4])] [2, 3, 4, 0]) 1 1,
    -- 2341: x58 = np.zeros((nocc[0], nocc[0], nocc[0], nvir[0]), dtype=types[float])
    .zeros 240 [0, 0, 0, 1],
    -- 2342: x58 += einsum("wxia,wxjk->jkia", u12.aa, x54) * 0.5
    .add 240 (.ein [(25, [0, 1, 2, 3]), (239, [0, 1, 4, 5])] [4, 5, 2, 3]) 1 2,
    -- 2343: x62 += einsum("wxia,wxjk->jkia", u12.bb, x54) * -0.5
    .add 88 (.ein [(29, [0, 1, 2, 3]), (239, [0, 1, 4, 5])] [4, 5, 2, 3]) (-1) 2,
    -- 2344: x163 = np.zeros((nocc[0], nvir[0]), dtype=types[float])
    .zeros 241 [0, 1],
    -- 2345: x163 += einsum("wxia,wxij->ja", u12.aa, x54)
    .add 241 (.ein [(25, [0, 1, 2, 3]), (239, [0, 1, 2, 4])] [4, 3]) 1 1,
    -- 2346: x178 += einsum("ia->ia", x163) * 0.5
    .add 151 (.ein [(241, [0, 1])] [0, 1]) 1 2,
    -- 2347: del x163
    .del 241,
    -- 2348: x585 = np.zeros((nbos, nocc[0], nvir[0]), dtype=types[float])
    .zeros 242 [2, 0, 1],
    -- 2349: x585 += einsum("wia,xwij->xja", u11.aa, x54)
    .add 242 (.ein [(24, [0, 1, 2]), (239, [3, 0, 1, 4])] [3, 4, 2]) 1 1,
    -- 2350: x586 = np.zeros((nbos, nbos), dtype=types[float])
    .zeros 243 [2, 2],
    -- 2351: x586 += einsum("wia,xia->wx", g.aa.bov, x585)
    .add 243 (.ein [(2, [0, 1, 2]), (242, [3, 1, 2])] [0, 3]) 1 1,
    -- 2352: del x585
    .del 242,
    -- 2353: x605 = np.zeros((nbos, nbos), dtype=types[float])
    .zeros 244 [2, 2],
    -- 2354: x605 -= einsum("wx->wx", x586)
    .add 244 (.ein [(243, [0, 1])] [0, 1]) (-1) 1,
    -- 2355: del x586
    .del 243,
    -- 2356: lu12new_aa += einsum("ijka,wxik->xwaj", x535, x54) * -1
    .add 227 (.ein [(142, [0, 1, 2, 3]), (239, [4, 5, 0, 2])] [5, 4, 3, 1]) (-1) 1,
    -- 2357: lu12new_aa += einsum("ia,wxji->xwaj", x41, x54) * -1
    .add 227 (.ein [(103, [0, 1]), (239, [2, 3, 4, 0])] [3, 2, 1, 4]) (-1) 1,
    -- 2358: lu12new_bb = np.zeros((nbos, nbos, nvir[1], nocc[1]), dtype=types[float])
    .zeros 245 [2, 2, 5, 4],
    -- 2359: lu12new_bb -= einsum("ijka,wxji->xwak", v.aabb.ooov, x54)
    .add 245 (.ein [(11, [0, 1, 2, 3]), (239, [4, 5, 1, 0])] [5, 4, 3, 2]) (-1) 1,
    -- 2360: lu12new_bb -= einsum("ijka,wxij->xwak", x25, x54)
    .add 245 (.ein [(167, [0, 1, 2, 3]), (239, [4, 5, 0, 1])] [5, 4, 3, 2]) (-1) 1,
    -- 2361: x55 = np.zeros((nocc[0], nocc[0], nocc[1], nvir[1]), dtype=types[float])
    .zeros 246 [0, 0, 4, 5],
    -- 2362: x55 += einsum("ia,abjk->jikb", t1.aa, l2.abab)
    .add 246 (.ein [(13, [0, 1]), (8, [1, 2, 3, 4])] [3, 0, 4, 2]) 1 1,
    -- 2363: x58 += einsum("ijab,kljb->klia", t2.abab, x55)
    .add 240 (.ein [(9, [0, 1, 2, 3]), (246, [4, 5, 1, 3])] [4, 5, 0, 2]) 1 1,
    -- 2364: x62 += einsum("ijab,klib->klja", x52, x55) * -1
    .add 88 (.ein [(236, [0, 1, 2, 3]), (246, [4, 5, 0, 3])] [4, 5, 1, 2]) (-1) 1,
    -- 2365: x164 = np.zeros((nocc[0], nvir[0]), dtype=types[float])
    .zeros 247 [0, 1],
    -- 2366: x164 += einsum("ijab,ikjb->ka", t2.abab, x55)
    .add 247 (.ein [(9, [0, 1, 2, 3]), (246, [0, 4, 1, 3])] [4, 2]) 1 1,
    -- 2367: x178 += einsum("ia->ia", x164)
    .add 151 (.ein [(247, [0, 1])] [0, 1]) 1 1,
    -- 2368: del x164
    .del 247,
    -- 2369: x297 += einsum("ia,ijkb->jkab", t1.aa, x55) * 2
    .add 161 (.ein [(13, [0, 1]), (246, [0, 2, 3, 4])] [2, 3, 1, 4]) 2 1,
    -- 2370: x301 += einsum("ijab,iklb->klja", t2.abab, x55)
    .add 89 (.ein [(9, [0, 1, 2, 3]), (246, [0, 4, 5, 3])] [4, 5, 1, 2]) 1 1,
    -- 2371: x426 = np.zeros((nocc[1], nocc[1], nvir[1], nvir[1]), dtype=types[float])
    .zeros 248 [4, 4, 5, 5],
    -- 2372: x426 += einsum("ijka,jilb->lkba", v.aabb.ooov, x55)
    .add 248 (.ein [(11, [0, 1, 2, 3]), (246, [1, 0, 4, 5])] [4, 2, 5, 3]) 1 1,
    -- 2373: x467 = np.zeros((nocc[1], nocc[1], nvir[1], nvir[1]), dtype=types[float])
    .zeros 249 [4, 4, 5, 5],
    -- 2374: x467 -= einsum("ijab->ijab", x426)
    .add 249 (.ein [(248, [0, 1, 2, 3])] [0, 1, 2, 3]) (-1) 1,
    -- 2375: del x426
    .del 248,
    -- 2376: x429 = np.zeros((nocc[1], nocc[1], nvir[1], nvir[1]), dtype=types[float])
    .zeros 250 [4, 4, 5, 5],
    -- 2377: x429 += einsum("ijka,ijlb->lkba", x25, x55)
    .add 250 (.ein [(167, [0, 1, 2, 3]), (246, [0, 1, 4, 5])] [4, 2, 5, 3]) 1 1,
    -- 2378: del x25
    .del 167,
    -- 2379: x467 -= einsum("ijab->ijab", x429)
    .add 249 (.ein [(250, [0, 1, 2, 3])] [0, 1, 2, 3]) (-1) 1,
    -- 2380: del x429
    .del 250,
    -- 2381: x500 = np.zeros((nocc[0], nocc[1], nvir[0], nvir[1]), dtype=types[float])
    .zeros 251 [0, 4, 1, 5],
    -- 2382: x500 += einsum("iabc,jikb->jkac", v.aabb.ovvv, x55)
    .add 251 (.ein [(17, [0, 1, 2, 3]), (246, [4, 0, 5, 2])] [4, 5, 1, 3]) 1 1,
    -- 2383: l2new_baba -= einsum("ijab->baji", x500)
    .add 91 (.ein [(251, [0, 1, 2, 3])] [3, 2, 1, 0]) (-1) 1,
    -- 2384: l2new_abab -= einsum("ijab->abij", x500)
    .add 92 (.ein [(251, [0, 1, 2, 3])] [2, 3, 0, 1]) (-1) 1,
    -- 2385: del x500
    .del 251,
    -- 2386: x533 = np.zeros((nocc[0], nocc[1], nvir[0], nvir[1]), dtype=types[float])
    .zeros 252 [0, 4, 1, 5],
    -- 2387: x533 += einsum("ijka,likb->ljab", x40, x55)
    .add 252 (.ein [(206, [0, 1, 2, 3]), (246, [4, 0, 2, 5])] [4, 1, 3, 5]) 1 1,
    -- 2388: l2new_baba += einsum("ijab->baji", x533)
    .add 91 (.ein [(252, [0, 1, 2, 3])] [3, 2, 1, 0]) 1 1,
    -- 2389: l2new_abab += einsum("ijab->abij", x533)
    .add 92 (.ein [(252, [0, 1, 2, 3])] [2, 3, 0, 1]) 1 1,
    -- 2390: del x533
    .del 252,
    -- 2391: x551 = np.zeros((nocc[0], nocc[1], nvir[0], nvir[1]), dtype=types[float])
    .zeros 253 [0, 4, 1, 5],
    -- 2392: x551 += einsum("ia,jikb->jkab", x41, x55)
    .add 253 (.ein [(103, [0, 1]), (246, [2, 0, 3, 4])] [2, 3, 1, 4]) 1 1,
    -- 2393: l2new_baba += einsum("ijab->baji", x551) * -1
    .add 91 (.ein [(253, [0, 1, 2, 3])] [3, 2, 1, 0]) (-1) 1,
    -- 2394: l2new_abab += einsum("ijab->abij", x551) * -1
    .add 92 (.ein [(253, [0, 1, 2, 3])] [2, 3, 0, 1]) (-1) 1,
    -- 2395: del x551
    .del 253,
    -- 2396: l1new_aa += einsum("ijab,kijb->ak", x48, x55) * -1
    .add 84 (.ein [(233, [0, 1, 2, 3]), (246, [4, 0, 1, 3])] [2, 4]) (-1) 1,
    -- 2397: del x48
    .del 233,
    -- 2398: l1new_bb -= einsum("ijab,jika->bk", v.aabb.oovv, x55)
    .add 85 (.ein [(42, [0, 1, 2, 3]), (246, [1, 0, 4, 2])] [3, 4]) (-1) 1,
    -- 2399: l2new_baba += einsum("ijka,iklb->balj", x535, x55) * -1
    .add 91 (.ein [(142, [0, 1, 2, 3]), (246, [0, 2, 4, 5])] [5, 3, 4, 1]) (-1) 1,
    -- 2400: del x535
    .del 142,
    -- 2401: l2new_abab += einsum("ijka,iklb->abjl", x395, x55)
    .add 92 (.ein [(141, [0, 1, 2, 3]), (246, [0, 2, 4, 5])] [3, 5, 1, 4]) 1 1,
    -- 2402: x56 = np.zeros((nocc[0], nocc[0], nocc[0], nvir[0]), dtype=types[float])
    .zeros 254 [0, 0, 0, 1],
    -- 2403: x56 += einsum("ia,abjk->kjib", t1.aa, l2.aaaa)
    .add 254 (.ein [(13, [0, 1]), (26, [1, 2, 3, 4])] [4, 3, 0, 2]) 1 1,
    -- 2404: x57 = np.zeros((nocc[0], nocc[0], nocc[0], nvir[0]), dtype=types[float])
    .zeros 255 [0, 0, 0, 1],
    -- 2405: x57 += einsum("ijka->ijka", x56)
    .add 255 (.ein [(254, [0, 1, 2, 3])] [0, 1, 2, 3]) 1 1,
    -- 2406: x57 += einsum("ijka->jika", x56) * -1
    .add 255 (.ein [(254, [0, 1, 2, 3])] [1, 0, 2, 3]) (-1) 1,
    -- 2407: x58 += einsum("ijab,kilb->klja", x23, x57)
    .add 240 (.ein [(143, [0, 1, 2, 3]), (255, [4, 0, 5, 3])] [4, 5, 1, 2]) 1 1,
    -- 2408: del x57
    .del 255,
    -- 2409: x60 = np.zeros((nocc[0], nocc[0], nocc[0], nvir[0]), dtype=types[float])
    .zeros 256 [0, 0, 0, 1],
    -- 2410: x60 += einsum("ijka->ijka", x56) * -1
    .add 256 (.ein [(254, [0, 1, 2, 3])] [0, 1, 2, 3]) (-1) 1,
    -- 2411: x60 += einsum("ijka->jika", x56)
    .add 256 (.ein [(254, [0, 1, 2, 3])] [1, 0, 2, 3]) 1 1,
    -- 2412: x62 += einsum("ijab,kila->kljb", t2.abab, x60) * -1
    .add 88 (.ein [(9, [0, 1, 2, 3]), (256, [4, 0, 5, 2])] [4, 5, 1, 3]) (-1) 1,
    -- 2413: x63 = np.zeros((nocc[0], nocc[0], nvir[0], nvir[0]), dtype=types[float])
    .zeros 257 [0, 0, 1, 1],
    -- 2414: x63 += einsum("ia,ijkb->jkba", t1.aa, x60) * -1
    .add 257 (.ein [(13, [0, 1]), (256, [0, 2, 3, 4])] [2, 3, 4, 1]) (-1) 1,
    -- 2415: l1new_aa += einsum("iabc,jiab->cj", x36, x63)
    .add 84 (.ein [(186, [0, 1, 2, 3]), (257, [4, 0, 1, 2])] [3, 4]) 1 1,
    -- 2416: del x36
    .del 186,
    -- 2417: del x63
    .del 257,
    -- 2418: x396 = np.zeros((nocc[0], nocc[0], nvir[0], nvir[0]), dtype=types[float])
    .zeros 258 [0, 0, 1, 1],
    -- 2419: x396 += einsum("ijka,ilkb->ljba", x395, x60)
    .add 258 (.ein [(141, [0, 1, 2, 3]), (256, [0, 4, 2, 5])] [4, 1, 5, 3]) 1 1,
    -- 2420: del x395
    .del 141,
    -- 2421: x414 = np.zeros((nocc[0], nocc[0], nvir[0], nvir[0]), dtype=types[float])
    .zeros 259 [0, 0, 1, 1],
    -- 2422: x414 += einsum("ijab->ijab", x396)
    .add 259 (.ein [(258, [0, 1, 2, 3])] [0, 1, 2, 3]) 1 1,
    -- 2423: del x396
    .del 258,
    -- 2424: l1new_aa += einsum("ijab,jkia->bk", x28, x60)
    .add 84 (.ein [(175, [0, 1, 2, 3]), (256, [1, 4, 0, 2])] [3, 4]) 1 1,
    -- 2425: del x28
    .del 175,
    -- 2426: l2new_baba += einsum("ijka,jlib->abkl", x26, x60) * -1
    .add 91 (.ein [(168, [0, 1, 2, 3]), (256, [1, 4, 0, 5])] [3, 5, 2, 4]) (-1) 1,
    -- 2427: del x60
    .del 256,
    -- 2428: x68 = np.zeros((nocc[0], nocc[0], nocc[0], nocc[0]), dtype=types[float])
    .zeros 260 [0, 0, 0, 0],
    -- 2429: x68 += einsum("ia,jkla->kjli", t1.aa, x56)
    .add 260 (.ein [(13, [0, 1]), (254, [2, 3, 4, 1])] [3, 2, 4, 0]) 1 1,
    -- 2430: x69 = np.zeros((nocc[0], nocc[0], nocc[0], nocc[0]), dtype=types[float])
    .zeros 261 [0, 0, 0, 0],
    -- 2431: x69 += einsum("ijkl->ijkl", x68)
    .add 261 (.ein [(260, [0, 1, 2, 3])] [0, 1, 2, 3]) 1 1,
    -- 2432: x122 = np.zeros((nocc[0], nocc[0], nocc[0], nocc[0]), dtype=types[float])
    .zeros 262 [0, 0, 0, 0],
    -- 2433: x122 += einsum("ijkl->ijkl", x68)
    .add 262 (.ein [(260, [0, 1, 2, 3])] [0, 1, 2, 3]) 1 1,
    -- 2434: x122 += einsum("ijkl->ijlk", x68) * -1
    .add 262 (.ein [(260, [0, 1, 2, 3])] [0, 1, 3, 2]) (-1) 1,
    -- 2435: l1new_aa += einsum("ijka,ljki->al", v.aaaa.ooov, x122)
    .add 84 (.ein [(27, [0, 1, 2, 3]), (262, [4, 1, 2, 0])] [3, 4]) 1 1,
    -- 2436: del x122
    .del 262,
    -- 2437: x420 = np.zeros((nocc[0], nocc[0], nocc[0], nocc[0]), dtype=types[float])
    .zeros 263 [0, 0, 0, 0],
    -- 2438: x420 += einsum("ijkl->ijkl", x68)
    .add 263 (.ein [(260, [0, 1, 2, 3])] [0, 1, 2, 3]) 1 1,
    -- 2439: del x68
    .del 260,
    -- 2440: x352 = np.zeros((nocc[0], nocc[0], nvir[0], nvir[0]), dtype=types[float])
    .zeros 264 [0, 0, 1, 1],
    -- 2441: x352 += einsum("iabc,jkib->kjac", v.aaaa.ovvv, x56)
    .add 264 (.ein [(22, [0, 1, 2, 3]), (254, [4, 5, 0, 2])] [5, 4, 1, 3]) 1 1,
    -- 2442: x390 -= einsum("ijab->ijab", x352)
    .add 98 (.ein [(264, [0, 1, 2, 3])] [0, 1, 2, 3]) (-1) 1,
    -- 2443: del x352
    .del 264,
    -- 2444: x363 = np.zeros((nocc[0], nocc[0], nocc[0], nvir[0]), dtype=types[float])
    .zeros 265 [0, 0, 0, 1],
    -- 2445: x363 -= einsum("ijka->ijka", x56)
    .add 265 (.ein [(254, [0, 1, 2, 3])] [0, 1, 2, 3]) (-1) 1,
    -- 2446: x363 += einsum("ijka->jika", x56)
    .add 265 (.ein [(254, [0, 1, 2, 3])] [1, 0, 2, 3]) 1 1,
    -- 2447: l2new_abab += einsum("ijka,jlib->balk", x26, x363) * -1
    .add 92 (.ein [(168, [0, 1, 2, 3]), (265, [1, 4, 0, 5])] [5, 3, 4, 2]) (-1) 1,
    -- 2448: del x26
    .del 168,
    -- 2449: x413 = np.zeros((nocc[0], nocc[0], nvir[0], nvir[0]), dtype=types[float])
    .zeros 266 [0, 0, 1, 1],
    -- 2450: x413 += einsum("ia,jkib->jkba", x14, x56)
    .add 266 (.ein [(114, [0, 1]), (254, [2, 3, 0, 4])] [2, 3, 4, 1]) 1 1,
    -- 2451: del x14
    .del 114,
    -- 2452: x414 += einsum("ijab->ijab", x413) * -1
    .add 259 (.ein [(266, [0, 1, 2, 3])] [0, 1, 2, 3]) (-1) 1,
    -- 2453: del x413
    .del 266,
    -- 2454: x59 = np.zeros((nocc[0], nocc[0], nvir[0], nvir[0]), dtype=types[float])
    .zeros 267 [0, 0, 1, 1],
    -- 2455: x59 += einsum("iajb->jiab", v.aaaa.ovov)
    .add 267 (.ein [(23, [0, 1, 2, 3])] [2, 0, 1, 3]) 1 1,
    -- 2456: x59 -= einsum("iajb->jiba", v.aaaa.ovov)
    .add 267 (.ein [(23, [0, 1, 2, 3])] [2, 0, 3, 1]) (-1) 1,
    -- 2457: x243 = np.zeros((nbos, nocc[0], nvir[0]), dtype=types[float])
    .zeros 268 [2, 0, 1],
    -- 2458: x243 += einsum("wia,ijab->wjb", u11.aa, x59)
    .add 268 (.ein [(24, [0, 1, 2]), (267, [1, 3, 2, 4])] [0, 3, 4]) 1 1,
    -- 2459: x244 = np.zeros((nbos, nocc[0], nvir[0]), dtype=types[float])
    .zeros 269 [2, 0, 1],
    -- 2460: x244 -= einsum("wia->wia", x243)
    .add 269 (.ein [(268, [0, 1, 2])] [0, 1, 2]) (-1) 1,
    -- 2461: x381 = np.zeros((nbos, nocc[0], nvir[0]), dtype=types[float])
    .zeros 270 [2, 0, 1],
    -- 2462: x381 -= einsum("wia->wia", x243)
    .add 270 (.ein [(268, [0, 1, 2])] [0, 1, 2]) (-1) 1,
    -- 2463: x553 = np.zeros((nbos, nocc[0], nvir[0]), dtype=types[float])
    .zeros 271 [2, 0, 1],
    -- 2464: x553 -= einsum("wia->wia", x243)
    .add 271 (.ein [(268, [0, 1, 2])] [0, 1, 2]) (-1) 1,
    -- 2465: del x243
    .del 268,
    -- 2466: x388 = np.zeros((nocc[0], nvir[0]), dtype=types[float])
    .zeros 272 [0, 1],
    -- 2467: x388 += einsum("ia,ijab->jb", t1.aa, x59)
    .add 272 (.ein [(13, [0, 1]), (267, [0, 2, 1, 3])] [2, 3]) 1 1,
    -- 2468: x389 -= einsum("ia->ia", x388)
    .add 115 (.ein [(272, [0, 1])] [0, 1]) (-1) 1,
    -- 2469: x390 += einsum("ai,jb->ijab", l1.aa, x389)
    .add 98 (.ein [(28, [0, 1]), (115, [2, 3])] [1, 2, 0, 3]) 1 1,
    -- 2470: del x389
    .del 115,
    -- 2471: x564 -= einsum("ia->ia", x388)
    .add 105 (.ein [(272, [0, 1])] [0, 1]) (-1) 1,
    -- 2472: del x388
    .del 272,
    -- 2473: l1new_aa += einsum("ijka,jkab->bi", x58, x59) * -1
    .add 84 (.ein [(240, [0, 1, 2, 3]), (267, [1, 2, 3, 4])] [4, 0]) (-1) 1,
    -- 2474: del x58
    .del 240,
    -- 2475: del x59
    .del 267,
    -- 2476: x62 += einsum("ai,jkab->ijkb", l1.aa, t2.abab) * -1
    .add 88 (.ein [(28, [0, 1]), (9, [2, 3, 0, 4])] [1, 2, 3, 4]) (-1) 1,
    -- 2477: l1new_aa += einsum("iajb,kijb->ak", v.aabb.ovov, x62)
    .add 84 (.ein [(14, [0, 1, 2, 3]), (88, [4, 0, 2, 3])] [1, 4]) 1 1,
    -- 2478: del x62
    .del 88,
    -- 2479: x64 = np.zeros((nocc[0], nvir[0], nvir[0], nvir[0]), dtype=types[float])
    .zeros 273 [0, 1, 1, 1],
    -- 2480: x64 += einsum("ia,bacd->icbd", t1.aa, v.aaaa.vvvv)
    .add 273 (.ein [(13, [0, 1]), (45, [2, 1, 3, 4])] [0, 3, 2, 4]) 1 1,
    -- 2481: x65 = np.zeros((nocc[0], nvir[0], nvir[0], nvir[0]), dtype=types[float])
    .zeros 274 [0, 1, 1, 1],
    -- 2482: x65 += einsum("iabc->iabc", x64) * -1
    .add 274 (.ein [(273, [0, 1, 2, 3])] [0, 1, 2, 3]) (-1) 1,
    -- 2483: del x64
    .del 273,
    -- 2484: x65 += einsum("aibc->iabc", v.aaaa.vovv)
    .add 274 (.ein [(46, [0, 1, 2, 3])] [1, 0, 2, 3]) 1 1,
    -- 2485: x66 = np.zeros((nocc[0], nvir[0], nvir[0], nvir[0]), dtype=types[float])
    .zeros 275 [0, 1, 1, 1],
    -- 2486: x66 += einsum("iabc->iabc", x65)
    .add 275 (.ein [(274, [0, 1, 2, 3])] [0, 1, 2, 3]) 1 1,
    -- 2487: x66 += einsum("iabc->ibac", x65) * -1
    .add 275 (.ein [(274, [0, 1, 2, 3])] [0, 2, 1, 3]) (-1) 1,
    -- 2488: del x65
    .del 274,
    -- 2489: l1new_aa += einsum("abij,ibac->cj", l2.aaaa, x66) * -1
    .add 84 (.ein [(26, [0, 1, 2, 3]), (275, [2, 1, 0, 4])] [4, 3]) (-1) 1,
    -- 2490: del x66
    .del 275,
    -- 2491: x67 = np.zeros((nocc[0], nocc[0], nocc[0], nocc[0]), dtype=types[float])
    .zeros 276 [0, 0, 0, 0],
    -- 2492: x67 += einsum("abij,klab->ijkl", l2.aaaa, t2.aaaa)
    .add 276 (.ein [(26, [0, 1, 2, 3]), (20, [4, 5, 0, 1])] [2, 3, 4, 5]) 1 1,
    -- 2493: x69 += einsum("ijkl->jilk", x67)
    .add 261 (.ein [(276, [0, 1, 2, 3])] [1, 0, 3, 2]) 1 1,
    -- 2494: x70 = np.zeros((nocc[0], nocc[0], nocc[0], nvir[0]), dtype=types[float])
    .zeros 277 [0, 0, 0, 1],
    -- 2495: x70 += einsum("ia,ijkl->jkla", t1.aa, x69)
    .add 277 (.ein [(13, [0, 1]), (261, [0, 2, 3, 4])] [2, 3, 4, 1]) 1 1,
    -- 2496: del x69
    .del 261,
    -- 2497: x71 = np.zeros((nocc[0], nocc[0], nocc[0], nvir[0]), dtype=types[float])
    .zeros 278 [0, 0, 0, 1],
    -- 2498: x71 += einsum("ijka->ijka", x70)
    .add 278 (.ein [(277, [0, 1, 2, 3])] [0, 1, 2, 3]) 1 1,
    -- 2499: x71 += einsum("ijka->ikja", x70) * -1
    .add 278 (.ein [(277, [0, 1, 2, 3])] [0, 2, 1, 3]) (-1) 1,
    -- 2500: del x70
    .del 277,
    -- 2501: l1new_aa += einsum("iajb,kjib->ak", v.aaaa.ovov, x71)
    .add 84 (.ein [(23, [0, 1, 2, 3]), (278, [4, 2, 0, 3])] [1, 4]) 1 1,
    -- 2502: del x71
    .del 278,
    -- 2503: x123 = np.zeros((nocc[0], nocc[0], nocc[0], nocc[0]), dtype=types[float])
    .zeros 279 [0, 0, 0, 0],
    -- 2504: x123 += einsum("ijkl->jikl", x67) * -1
    .add 279 (.ein [(276, [0, 1, 2, 3])] [1, 0, 2, 3]) (-1) 1,
    -- 2505: x123 += einsum("ijkl->jilk", x67)
    .add 279 (.ein [(276, [0, 1, 2, 3])] [1, 0, 3, 2]) 1 1,
    -- 2506: l1new_aa += einsum("ijka,jlki->al", v.aaaa.ooov, x123) * -1
    .add 84 (.ein [(27, [0, 1, 2, 3]), (279, [1, 4, 2, 0])] [3, 4]) (-1) 1,
    -- 2507: del x123
    .del 279,
    -- 2508: x420 += einsum("ijkl->jilk", x67)
    .add 263 (.ein [(276, [0, 1, 2, 3])] [1, 0, 3, 2]) 1 1,
    -- 2509: del x67
    .del 276,
    -- 2510: x421 = np.zeros((nocc[0], nocc[0], nvir[0], nvir[0]), dtype=types[float])
    .zeros 280 [0, 0, 1, 1],
    -- 2511: x421 += einsum("iajb,klji->klab", v.aaaa.ovov, x420)
    .add 280 (.ein [(23, [0, 1, 2, 3]), (263, [4, 5, 2, 0])] [4, 5, 1, 3]) 1 1,
    -- 2512: del x420
    .del 263,
    -- 2513: x422 += einsum("ijab->jiab", x421)
    .add 136 (.ein [(280, [0, 1, 2, 3])] [1, 0, 2, 3]) 1 1,
    -- 2514: del x421
    .del 280,
    -- 2515: l2new_aaaa = np.zeros((nvir[0], nvir[0], nocc[0], nocc[0]), dtype=types[float])
    .zeros 281 [1, 1, 0, 0],
    -- 2516: l2new_aaaa += einsum("ijab->abij", x422)
    .add 281 (.ein [(136, [0, 1, 2, 3])] [2, 3, 0, 1]) 1 1,
    -- 2517: l2new_aaaa += einsum("ijab->baij", x422) * -1
    .add 281 (.ein [(136, [0, 1, 2, 3])] [3, 2, 0, 1]) (-1) 1,
    -- 2518: del x422
    .del 136,
    -- 2519: x72 = np.zeros((nocc[1], nvir[0], nvir[0], nvir[1]), dtype=types[float])
    .zeros 282 [4, 1, 1, 5],
    -- 2520: x72 += einsum("abci->iabc", v.aabb.vvvo)
    .add 282 (.ein [(47, [0, 1, 2, 3])] [3, 0, 1, 2]) 1 1,
    -- 2521: x72 += einsum("ia,bcda->ibcd", t1.bb, v.aabb.vvvv)
    .add 282 (.ein [(12, [0, 1]), (48, [2, 3, 4, 1])] [0, 2, 3, 4]) 1 1,
    -- 2522: l1new_aa += einsum("abij,jacb->ci", l2.abab, x72)
    .add 84 (.ein [(8, [0, 1, 2, 3]), (282, [3, 0, 4, 1])] [4, 2]) 1 1,
    -- 2523: del x72
    .del 282,
    -- 2524: x73 = np.zeros((nbos, nocc[0], nvir[0]), dtype=types[float])
    .zeros 283 [2, 0, 1],
    -- 2525: x73 += einsum("wx,wia->xia", s2, g.aa.bov)
    .add 283 (.ein [(49, [0, 1]), (2, [0, 2, 3])] [1, 2, 3]) 1 1,
    -- 2526: x76 += einsum("wia->wia", x73)
    .add 122 (.ein [(283, [0, 1, 2])] [0, 1, 2]) 1 1,
    -- 2527: x553 += einsum("wia->wia", x73)
    .add 271 (.ein [(283, [0, 1, 2])] [0, 1, 2]) 1 1,
    -- 2528: del x73
    .del 283,
    -- 2529: x74 = np.zeros((nbos, nocc[0], nvir[0]), dtype=types[float])
    .zeros 284 [2, 0, 1],
    -- 2530: x74 += einsum("wia,jbia->wjb", u11.bb, v.aabb.ovov)
    .add 284 (.ein [(50, [0, 1, 2]), (14, [3, 4, 1, 2])] [0, 3, 4]) 1 1,
    -- 2531: x76 += einsum("wia->wia", x74)
    .add 122 (.ein [(284, [0, 1, 2])] [0, 1, 2]) 1 1,
    -- 2532: x220 += einsum("wia->wia", x74)
    .add 123 (.ein [(284, [0, 1, 2])] [0, 1, 2]) 1 1,
    -- 2533: x244 += einsum("wia->wia", x74)
    .add 269 (.ein [(284, [0, 1, 2])] [0, 1, 2]) 1 1,
    -- 2534: x381 += einsum("wia->wia", x74)
    .add 270 (.ein [(284, [0, 1, 2])] [0, 1, 2]) 1 1,
    -- 2535: x382 = np.zeros((nocc[0], nocc[0], nvir[0], nvir[0]), dtype=types[float])
    .zeros 285 [0, 0, 1, 1],
    -- 2536: x382 += einsum("wai,wjb->ijab", lu11.aa, x381)
    .add 285 (.ein [(51, [0, 1, 2]), (270, [0, 3, 4])] [2, 3, 1, 4]) 1 1,
    -- 2537: del x381
    .del 270,
    -- 2538: x390 += einsum("ijab->ijab", x382)
    .add 98 (.ein [(285, [0, 1, 2, 3])] [0, 1, 2, 3]) 1 1,
    -- 2539: del x382
    .del 285,
    -- 2540: x553 += einsum("wia->wia", x74)
    .add 271 (.ein [(284, [0, 1, 2])] [0, 1, 2]) 1 1,
    -- 2541: del x74
    .del 284,
    -- 2542: x76 += einsum("wia->wia", gc.aa.bov)
    .add 122 (.ein [(74, [0, 1, 2])] [0, 1, 2]) 1 1,
    -- 2543: x77 += einsum("wia,xja->wxji", u11.aa, x76) * 2
    .add 171 (.ein [(24, [0, 1, 2]), (122, [3, 4, 2])] [0, 3, 4, 1]) 2 1,
    -- 2544: l1new_aa += einsum("wxai,wxji->aj", lu12.aa, x77) * -0.5
    .add 84 (.ein [(33, [0, 1, 2, 3]), (171, [0, 1, 4, 3])] [2, 4]) (-1) 2,
    -- 2545: del x77
    .del 171,
    -- 2546: x571 = np.zeros((nbos, nocc[1], nvir[1]), dtype=types[float])
    .zeros 286 [2, 4, 5],
    -- 2547: x571 += einsum("wia,ijab->wjb", x76, t2.abab) * -1
    .add 286 (.ein [(122, [0, 1, 2]), (9, [1, 3, 2, 4])] [0, 3, 4]) (-1) 1,
    -- 2548: x575 += einsum("wia,ijab->wjb", x76, x23) * -1
    .add 178 (.ein [(122, [0, 1, 2]), (143, [1, 3, 2, 4])] [0, 3, 4]) (-1) 1,
    -- 2549: del x76
    .del 122,
    -- 2550: del x23
    .del 143,
    -- 2551: x78 = np.zeros((nocc[0], nocc[0], nocc[0], nvir[0]), dtype=types[float])
    .zeros 287 [0, 0, 0, 1],
    -- 2552: x78 += einsum("ai,jkba->ijkb", l1.aa, t2.aaaa)
    .add 287 (.ein [(28, [0, 1]), (20, [2, 3, 4, 0])] [1, 2, 3, 4]) 1 1,
    -- 2553: x79 = np.zeros((nocc[0], nocc[0], nocc[0], nvir[0]), dtype=types[float])
    .zeros 288 [0, 0, 0, 1],
    -- 2554: x79 += einsum("ijka->ikja", x78)
    .add 288 (.ein [(287, [0, 1, 2, 3])] [0, 2, 1, 3]) 1 1,
    -- 2555: x79 += einsum("ijka->ijka", x78) * -1
    .add 288 (.ein [(287, [0, 1, 2, 3])] [0, 1, 2, 3]) (-1) 1,
    -- 2556: del x78
    .del 287,
    -- 2557: l1new_aa += einsum("iajb,kjia->bk", v.aaaa.ovov, x79) * -1
    .add 84 (.ein [(23, [0, 1, 2, 3]), (288, [4, 2, 0, 1])] [3, 4]) (-1) 1,
    -- 2558: del x79
    .del 288,
    -- 2559: x80 = np.zeros((nocc[0], nvir[0]), dtype=types[float])
    .zeros 289 [0, 1],
    -- 2560: x80 += einsum("w,wai->ia", s1, g.aa.bvo)
    .add 289 (.ein [(18, [0]), (1, [0, 1, 2])] [2, 1]) 1 1,
    -- 2561: x121 += einsum("ia->ia", x80)
    .add 147 (.ein [(289, [0, 1])] [0, 1]) 1 1,
    -- 2562: del x80
    .del 289,
    -- 2563: x81 = np.zeros((nocc[0], nvir[0]), dtype=types[float])
    .zeros 290 [0, 1],
    -- 2564: x81 += einsum("wab,wib->ia", g.aa.bvv, u11.aa)
    .add 290 (.ein [(3, [0, 1, 2]), (24, [0, 3, 2])] [3, 1]) 1 1,
    -- 2565: x121 += einsum("ia->ia", x81)
    .add 147 (.ein [(290, [0, 1])] [0, 1]) 1 1,
    -- 2566: del x81
    .del 290,
    -- 2567: x82 = np.zeros((nocc[0], nvir[0]), dtype=types[float])
    .zeros 291 [0, 1],
    -- 2568: x82 += einsum("ia,iabj->jb", t1.bb, v.bbaa.ovvo)
    .add 291 (.ein [(12, [0, 1]), (52, [0, 1, 2, 3])] [3, 2]) 1 1,
    -- 2569: x121 += einsum("ia->ia", x82)
    .add 147 (.ein [(291, [0, 1])] [0, 1]) 1 1,
    -- 2570: del x82
    .del 291,
    -- 2571: x83 = np.zeros((nocc[0], nvir[0]), dtype=types[float])
    .zeros 292 [0, 1],
    -- 2572: x83 += einsum("ijab,jkib->ka", t2.aaaa, v.aaaa.ooov)
    .add 292 (.ein [(20, [0, 1, 2, 3]), (27, [1, 4, 0, 3])] [4, 2]) 1 1,
    -- 2573: x121 += einsum("ia->ia", x83)
    .add 147 (.ein [(292, [0, 1])] [0, 1]) 1 1,
    -- 2574: del x83
    .del 292,
    -- 2575: x84 = np.zeros((nocc[0], nvir[0]), dtype=types[float])
    .zeros 293 [0, 1],
    -- 2576: x84 += einsum("ijab,jbca->ic", t2.abab, v.bbaa.ovvv)
    .add 293 (.ein [(9, [0, 1, 2, 3]), (15, [1, 3, 4, 2])] [0, 4]) 1 1,
    -- 2577: x121 += einsum("ia->ia", x84)
    .add 147 (.ein [(293, [0, 1])] [0, 1]) 1 1,
    -- 2578: del x84
    .del 293,
    -- 2579: x86 += einsum("ijka->ikja", v.aaaa.ooov)
    .add 139 (.ein [(27, [0, 1, 2, 3])] [0, 2, 1, 3]) 1 1,
    -- 2580: x87 = np.zeros((nocc[0], nvir[0]), dtype=types[float])
    .zeros 294 [0, 1],
    -- 2581: x87 += einsum("ijab,ijkb->ka", t2.aaaa, x86)
    .add 294 (.ein [(20, [0, 1, 2, 3]), (139, [0, 1, 4, 3])] [4, 2]) 1 1,
    -- 2582: del x86
    .del 139,
    -- 2583: x121 += einsum("ia->ia", x87) * -1
    .add 147 (.ein [(294, [0, 1])] [0, 1]) (-1) 1,
    -- 2584: del x87
    .del 294,
    -- 2585: x89 = np.zeros((nocc[0], nocc[0], nvir[0], nvir[0]), dtype=types[float])
    .zeros 295 [0, 0, 1, 1],
    -- 2586: x89 += einsum("ijab->jiab", t2.aaaa)
    .add 295 (.ein [(20, [0, 1, 2, 3])] [1, 0, 2, 3]) 1 1,
    -- 2587: x89 += einsum("ijab->jiba", t2.aaaa) * -1
    .add 295 (.ein [(20, [0, 1, 2, 3])] [1, 0, 3, 2]) (-1) 1,
    -- 2588: x90 = np.zeros((nocc[0], nvir[0]), dtype=types[float])
    .zeros 296 [0, 1],
    -- 2589: x90 += einsum("ia,ijab->jb", x41, x89)
    .add 296 (.ein [(103, [0, 1]), (295, [0, 2, 1, 3])] [2, 3]) 1 1,
    -- 2590: x121 += einsum("ia->ia", x90) * -1
    .add 147 (.ein [(296, [0, 1])] [0, 1]) (-1) 1,
    -- 2591: del x90
    .del 296,
    -- 2592: x165 = np.zeros((nocc[0], nvir[0]), dtype=types[float])
    .zeros 297 [0, 1],
    -- 2593: x165 += einsum("ijka,ijab->kb", x56, x89)
    .add 297 (.ein [(254, [0, 1, 2, 3]), (295, [0, 1, 3, 4])] [2, 4]) 1 1,
    -- 2594: x178 += einsum("ia->ia", x165) * -1
    .add 151 (.ein [(297, [0, 1])] [0, 1]) (-1) 1,
    -- 2595: del x165
    .del 297,
    -- 2596: x293 += einsum("ijka,ilab->ljkb", x40, x89) * -1
    .add 173 (.ein [(206, [0, 1, 2, 3]), (295, [0, 4, 3, 5])] [4, 1, 2, 5]) (-1) 1,
    -- 2597: x392 = np.zeros((nocc[0], nocc[0], nvir[0], nvir[0]), dtype=types[float])
    .zeros 298 [0, 0, 1, 1],
    -- 2598: x392 += einsum("ijab,ikac->jkbc", x12, x89)
    .add 298 (.ein [(116, [0, 1, 2, 3]), (295, [0, 4, 2, 5])] [1, 4, 3, 5]) 1 1,
    -- 2599: x393 = np.zeros((nocc[0], nocc[0], nvir[0], nvir[0]), dtype=types[float])
    .zeros 299 [0, 0, 1, 1],
    -- 2600: x393 += einsum("ijab->jiba", x392)
    .add 299 (.ein [(298, [0, 1, 2, 3])] [1, 0, 3, 2]) 1 1,
    -- 2601: x513 += einsum("ijab->ijba", x392)
    .add 188 (.ein [(298, [0, 1, 2, 3])] [0, 1, 3, 2]) 1 1,
    -- 2602: del x392
    .del 298,
    -- 2603: x505 = np.zeros((nocc[0], nocc[1], nvir[0], nvir[1]), dtype=types[float])
    .zeros 300 [0, 4, 1, 5],
    -- 2604: x505 += einsum("iajb,ikac->kjcb", v.aabb.ovov, x89)
    .add 300 (.ein [(14, [0, 1, 2, 3]), (295, [0, 4, 1, 5])] [4, 2, 5, 3]) 1 1,
    -- 2605: x507 = np.zeros((nocc[0], nocc[1], nvir[0], nvir[1]), dtype=types[float])
    .zeros 301 [0, 4, 1, 5],
    -- 2606: x507 += einsum("ijab->ijab", x505) * -1
    .add 301 (.ein [(300, [0, 1, 2, 3])] [0, 1, 2, 3]) (-1) 1,
    -- 2607: del x505
    .del 300,
    -- 2608: x542 = np.zeros((nvir[0], nvir[0]), dtype=types[float])
    .zeros 302 [1, 1],
    -- 2609: x542 += einsum("iajb,ijbc->ac", v.aaaa.ovov, x89)
    .add 302 (.ein [(23, [0, 1, 2, 3]), (295, [0, 2, 3, 4])] [1, 4]) 1 1,
    -- 2610: x543 = np.zeros((nvir[0], nvir[0]), dtype=types[float])
    .zeros 303 [1, 1],
    -- 2611: x543 += einsum("ab->ba", x542) * -1
    .add 303 (.ein [(302, [0, 1])] [1, 0]) (-1) 1,
    -- 2612: del x542
    .del 302,
    -- 2613: x614 = np.zeros((nbos, nbos, nocc[0], nvir[0]), dtype=types[float])
    .zeros 304 [2, 2, 0, 1],
    -- 2614: x614 += einsum("wxai,ijab->wxjb", lu12.aa, x89)
    .add 304 (.ein [(33, [0, 1, 2, 3]), (295, [3, 4, 2, 5])] [0, 1, 4, 5]) 1 1,
    -- 2615: del x89
    .del 295,
    -- 2616: x615 = np.zeros((nbos, nbos, nocc[0], nvir[0]), dtype=types[float])
    .zeros 305 [2, 2, 0, 1],
    -- 2617: x615 += einsum("wxia->xwia", x614) * -1
    .add 305 (.ein [(304, [0, 1, 2, 3])] [1, 0, 2, 3]) (-1) 1,
    -- 2618: del x614
    .del 304,
    -- 2619: x91 = np.zeros((nocc[1], nvir[1]), dtype=types[float])
    .zeros 306 [4, 5],
    -- 2620: x91 += einsum("w,wia->ia", s1, g.bb.bov)
    .add 306 (.ein [(18, [0]), (6, [0, 1, 2])] [1, 2]) 1 1,
    -- 2621: x95 = np.zeros((nocc[1], nvir[1]), dtype=types[float])
    .zeros 307 [4, 5],
    -- 2622: x95 += einsum("ia->ia", x91)
    .add 307 (.ein [(306, [0, 1])] [0, 1]) 1 1,
    -- 2623: x266 = np.zeros((nocc[1], nvir[1]), dtype=types[float])
    .zeros 308 [4, 5],
    -- 2624: x266 += einsum("ia->ia", x91)
    .add 308 (.ein [(306, [0, 1])] [0, 1]) 1 1,
    -- 2625: x447 = np.zeros((nocc[1], nvir[1]), dtype=types[float])
    .zeros 309 [4, 5],
    -- 2626: x447 += einsum("ia->ia", x91)
    .add 309 (.ein [(306, [0, 1])] [0, 1]) 1 1,
    -- 2627: x563 = np.zeros((nocc[1], nvir[1]), dtype=types[float])
    .zeros 310 [4, 5],
    -- 2628: x563 += einsum("ia->ia", x91)
    .add 310 (.ein [(306, [0, 1])] [0, 1]) 1 1,
    -- 2629: del x91
    .del 306,
    -- 2630: x92 = np.zeros((nocc[1], nvir[1]), dtype=types[float])
    .zeros 311 [4, 5],
    -- 2631: x92 += einsum("ia,iajb->jb", t1.aa, v.aabb.ovov)
    .add 311 (.ein [(13, [0, 1]), (14, [0, 1, 2, 3])] [2, 3]) 1 1,
    -- 2632: x95 += einsum("ia->ia", x92)
    .add 307 (.ein [(311, [0, 1])] [0, 1]) 1 1,
    -- 2633: x272 = np.zeros((nocc[1], nvir[1]), dtype=types[float])
    .zeros 312 [4, 5],
    -- 2634: x272 += einsum("ia->ia", x92)
    .add 312 (.ein [(311, [0, 1])] [0, 1]) 1 1,
    -- 2635: x466 = np.zeros((nocc[1], nvir[1]), dtype=types[float])
    .zeros 313 [4, 5],
    -- 2636: x466 += einsum("ia->ia", x92)
    .add 313 (.ein [(311, [0, 1])] [0, 1]) 1 1,
    -- 2637: x563 += einsum("ia->ia", x92)
    .add 310 (.ein [(311, [0, 1])] [0, 1]) 1 1,
    -- 2638: del x92
    .del 311,
    -- 2639: x93 = np.zeros((nocc[1], nocc[1], nvir[1], nvir[1]), dtype=types[float])
    .zeros 314 [4, 4, 5, 5],
    -- 2640: x93 += einsum("iajb->jiab", v.bbbb.ovov) * -1
    .add 314 (.ein [(53, [0, 1, 2, 3])] [2, 0, 1, 3]) (-1) 1,
    -- 2641: x93 += einsum("iajb->jiba", v.bbbb.ovov)
    .add 314 (.ein [(53, [0, 1, 2, 3])] [2, 0, 3, 1]) 1 1,
    -- 2642: x94 = np.zeros((nocc[1], nvir[1]), dtype=types[float])
    .zeros 315 [4, 5],
    -- 2643: x94 += einsum("ia,ijba->jb", t1.bb, x93)
    .add 315 (.ein [(12, [0, 1]), (314, [0, 2, 3, 1])] [2, 3]) 1 1,
    -- 2644: x95 += einsum("ia->ia", x94) * -1
    .add 307 (.ein [(315, [0, 1])] [0, 1]) (-1) 1,
    -- 2645: x272 += einsum("ia->ia", x94) * -1
    .add 312 (.ein [(315, [0, 1])] [0, 1]) (-1) 1,
    -- 2646: del x94
    .del 315,
    -- 2647: x273 = np.zeros((nocc[1], nocc[1], nocc[1], nvir[1]), dtype=types[float])
    .zeros 316 [4, 4, 4, 5],
    -- 2648: x273 += einsum("ia,jkab->jkib", x272, t2.bbbb)
    .add 316 (.ein [(312, [0, 1]), (34, [2, 3, 1, 4])] [2, 3, 0, 4]) 1 1,
    -- 2649: x278 = np.zeros((nocc[1], nocc[1], nocc[1], nvir[1]), dtype=types[float])
    .zeros 317 [4, 4, 4, 5],
    -- 2650: x278 += einsum("ijka->jika", x273)
    .add 317 (.ein [(316, [0, 1, 2, 3])] [1, 0, 2, 3]) 1 1,
    -- 2651: del x273
    .del 316,
    -- 2652: x481 = np.zeros((nocc[1], nocc[1]), dtype=types[float])
    .zeros 318 [4, 4],
    -- 2653: x481 += einsum("ia,ja->ij", t1.bb, x272)
    .add 318 (.ein [(12, [0, 1]), (312, [2, 1])] [0, 2]) 1 1,
    -- 2654: x482 = np.zeros((nocc[1], nocc[1]), dtype=types[float])
    .zeros 319 [4, 4],
    -- 2655: x482 += einsum("ij->ij", x481)
    .add 319 (.ein [(318, [0, 1])] [0, 1]) 1 1,
    -- 2656: del x481
    .del 318,
    -- 2657: x227 = np.zeros((nbos, nocc[1], nvir[1]), dtype=types[float])
    .zeros 320 [2, 4, 5],
    -- 2658: x227 += einsum("wia,ijba->wjb", u11.bb, x93) * 0.5
    .add 320 (.ein [(50, [0, 1, 2]), (314, [1, 3, 4, 2])] [0, 3, 4]) 1 2,
    -- 2659: x228 = np.zeros((nbos, nocc[1], nvir[1]), dtype=types[float])
    .zeros 321 [2, 4, 5],
    -- 2660: x228 += einsum("wia->wia", x227) * -1
    .add 321 (.ein [(320, [0, 1, 2])] [0, 1, 2]) (-1) 1,
    -- 2661: del x227
    .del 320,
    -- 2662: x315 = np.zeros((nbos, nocc[1], nvir[1]), dtype=types[float])
    .zeros 322 [2, 4, 5],
    -- 2663: x315 += einsum("wia,ijba->wjb", u11.bb, x93)
    .add 322 (.ein [(50, [0, 1, 2]), (314, [1, 3, 4, 2])] [0, 3, 4]) 1 1,
    -- 2664: x316 = np.zeros((nbos, nocc[1], nvir[1]), dtype=types[float])
    .zeros 323 [2, 4, 5],
    -- 2665: x316 += einsum("wia->wia", x315) * -1
    .add 323 (.ein [(322, [0, 1, 2])] [0, 1, 2]) (-1) 1,
    -- 2666: x330 = np.zeros((nbos, nocc[1], nvir[1]), dtype=types[float])
    .zeros 324 [2, 4, 5],
    -- 2667: x330 += einsum("wia->wia", x315) * -1
    .add 324 (.ein [(322, [0, 1, 2])] [0, 1, 2]) (-1) 1,
    -- 2668: del x315
    .del 322,
    -- 2669: x475 = np.zeros((nbos, nbos, nocc[1], nvir[1]), dtype=types[float])
    .zeros 325 [2, 2, 4, 5],
    -- 2670: x475 += einsum("wxia,ijba->wxjb", u12.bb, x93)
    .add 325 (.ein [(29, [0, 1, 2, 3]), (314, [2, 4, 5, 3])] [0, 1, 4, 5]) 1 1,
    -- 2671: x476 = np.zeros((nbos, nbos, nocc[1], nvir[1]), dtype=types[float])
    .zeros 326 [2, 2, 4, 5],
    -- 2672: x476 += einsum("wxia->xwia", x475) * -1
    .add 326 (.ein [(325, [0, 1, 2, 3])] [1, 0, 2, 3]) (-1) 1,
    -- 2673: del x475
    .del 325,
    -- 2674: x480 = np.zeros((nocc[1], nocc[1]), dtype=types[float])
    .zeros 327 [4, 4],
    -- 2675: x480 += einsum("ijab,ikba->jk", t2.bbbb, x93)
    .add 327 (.ein [(34, [0, 1, 2, 3]), (314, [0, 4, 3, 2])] [1, 4]) 1 1,
    -- 2676: x482 += einsum("ij->ij", x480) * -1
    .add 319 (.ein [(327, [0, 1])] [0, 1]) (-1) 1,
    -- 2677: del x480
    .del 327,
    -- 2678: x485 = np.zeros((nvir[1], nvir[1]), dtype=types[float])
    .zeros 328 [5, 5],
    -- 2679: x485 += einsum("ijab,ijbc->ac", t2.bbbb, x93)
    .add 328 (.ein [(34, [0, 1, 2, 3]), (314, [0, 1, 3, 4])] [2, 4]) 1 1,
    -- 2680: x486 = np.zeros((nvir[1], nvir[1]), dtype=types[float])
    .zeros 329 [5, 5],
    -- 2681: x486 += einsum("ab->ab", x485) * -1
    .add 329 (.ein [(328, [0, 1])] [0, 1]) (-1) 1,
    -- 2682: del x485
    .del 328,
    -- 2683: x506 = np.zeros((nocc[0], nocc[1], nvir[0], nvir[1]), dtype=types[float])
    .zeros 330 [0, 4, 1, 5],
    -- 2684: x506 += einsum("ijab,jkcb->ikac", t2.abab, x93)
    .add 330 (.ein [(9, [0, 1, 2, 3]), (314, [1, 4, 5, 3])] [0, 4, 2, 5]) 1 1,
    -- 2685: x507 += einsum("ijab->ijab", x506) * -1
    .add 301 (.ein [(330, [0, 1, 2, 3])] [0, 1, 2, 3]) (-1) 1,
    -- 2686: del x506
    .del 330,
    -- 2687: x95 += einsum("ia->ia", f.bb.ov)
    .add 307 (.ein [(54, [0, 1])] [0, 1]) 1 1,
    -- 2688: x96 = np.zeros((nocc[0], nvir[0]), dtype=types[float])
    .zeros 331 [0, 1],
    -- 2689: x96 += einsum("ia,jiba->jb", x95, t2.abab)
    .add 331 (.ein [(307, [0, 1]), (9, [2, 0, 3, 1])] [2, 3]) 1 1,
    -- 2690: x121 += einsum("ia->ia", x96)
    .add 147 (.ein [(331, [0, 1])] [0, 1]) 1 1,
    -- 2691: del x96
    .del 331,
    -- 2692: x134 = np.zeros((nocc[1], nvir[1]), dtype=types[float])
    .zeros 332 [4, 5],
    -- 2693: x134 += einsum("ia,ijba->jb", x95, x38)
    .add 332 (.ein [(307, [0, 1]), (190, [0, 2, 3, 1])] [2, 3]) 1 1,
    -- 2694: x159 += einsum("ia->ia", x134) * -1
    .add 211 (.ein [(332, [0, 1])] [0, 1]) (-1) 1,
    -- 2695: del x134
    .del 332,
    -- 2696: x149 = np.zeros((nocc[1], nocc[1]), dtype=types[float])
    .zeros 333 [4, 4],
    -- 2697: x149 += einsum("ia,ja->ij", t1.bb, x95)
    .add 333 (.ein [(12, [0, 1]), (307, [2, 1])] [0, 2]) 1 1,
    -- 2698: x150 = np.zeros((nocc[1], nocc[1]), dtype=types[float])
    .zeros 334 [4, 4],
    -- 2699: x150 += einsum("ij->ji", x149)
    .add 334 (.ein [(333, [0, 1])] [1, 0]) 1 1,
    -- 2700: del x149
    .del 333,
    -- 2701: x233 += einsum("ia,wxia->xw", x95, u12.bb) * 0.5
    .add 222 (.ein [(307, [0, 1]), (29, [2, 3, 0, 1])] [3, 2]) 1 2,
    -- 2702: x256 = np.zeros((nbos), dtype=types[float])
    .zeros 335 [2],
    -- 2703: x256 += einsum("ia,wia->w", x95, u11.bb)
    .add 335 (.ein [(307, [0, 1]), (50, [2, 0, 1])] [2]) 1 1,
    -- 2704: x258 += einsum("w->w", x256)
    .add 224 (.ein [(335, [0])] [0]) 1 1,
    -- 2705: del x256
    .del 335,
    -- 2706: x293 += einsum("ia,jkba->jikb", x95, t2.abab)
    .add 173 (.ein [(307, [0, 1]), (9, [2, 3, 4, 1])] [2, 0, 3, 4]) 1 1,
    -- 2707: x317 += einsum("ia,wxja->xwij", x95, u12.bb) * 0.5
    .add 215 (.ein [(307, [0, 1]), (29, [2, 3, 4, 1])] [3, 2, 0, 4]) 1 2,
    -- 2708: x329 = np.zeros((nbos, nocc[1], nocc[1]), dtype=types[float])
    .zeros 336 [2, 4, 4],
    -- 2709: x329 += einsum("ia,wja->wji", x95, u11.bb)
    .add 336 (.ein [(307, [0, 1]), (50, [2, 3, 1])] [2, 3, 0]) 1 1,
    -- 2710: x333 = np.zeros((nbos, nocc[1], nocc[1]), dtype=types[float])
    .zeros 337 [2, 4, 4],
    -- 2711: x333 += einsum("wij->wji", x329)
    .add 337 (.ein [(336, [0, 1, 2])] [0, 2, 1]) 1 1,
    -- 2712: del x329
    .del 336,
    -- 2713: x334 += einsum("ia,wxia->xw", x95, u12.bb)
    .add 225 (.ein [(307, [0, 1]), (29, [2, 3, 0, 1])] [3, 2]) 1 1,
    -- 2714: x552 = np.zeros((nocc[0], nocc[1], nvir[0], nvir[1]), dtype=types[float])
    .zeros 338 [0, 4, 1, 5],
    -- 2715: x552 += einsum("ia,jkib->jkba", x95, x1)
    .add 338 (.ein [(307, [0, 1]), (86, [2, 3, 0, 4])] [2, 3, 4, 1]) 1 1,
    -- 2716: l2new_baba += einsum("ijab->baji", x552) * -1
    .add 91 (.ein [(338, [0, 1, 2, 3])] [3, 2, 1, 0]) (-1) 1,
    -- 2717: l2new_abab += einsum("ijab->abij", x552) * -1
    .add 92 (.ein [(338, [0, 1, 2, 3])] [2, 3, 0, 1]) (-1) 1,
    -- 2718: del x552
    .del 338,
    -- 2719: lu11new_bb = np.zeros((nbos, nvir[1], nocc[1]), dtype=types[float])
    .zeros 339 [2, 5, 4],
    -- 2720: lu11new_bb += einsum("w,ia->wai", ls1, x95) * 2
    .add 339 (.ein [(37, [0]), (307, [1, 2])] [0, 2, 1]) 2 1,
    -- 2721: lu12new_bb += einsum("wx,ia->xwai", ls2, x95) * 2
    .add 245 (.ein [(38, [0, 1]), (307, [2, 3])] [1, 0, 3, 2]) 2 1,
    -- 2722: x98 = np.zeros((nbos, nocc[0], nocc[0]), dtype=types[float])
    .zeros 340 [2, 0, 0],
    -- 2723: x98 += einsum("ia,wja->wji", t1.aa, g.aa.bov)
    .add 340 (.ein [(13, [0, 1]), (2, [2, 3, 1])] [2, 3, 0]) 1 1,
    -- 2724: x99 = np.zeros((nbos, nocc[0], nocc[0]), dtype=types[float])
    .zeros 341 [2, 0, 0],
    -- 2725: x99 += einsum("wij->wij", x98)
    .add 341 (.ein [(340, [0, 1, 2])] [0, 1, 2]) 1 1,
    -- 2726: x598 = np.zeros((nbos, nocc[0], nocc[0]), dtype=types[float])
    .zeros 342 [2, 0, 0],
    -- 2727: x598 += einsum("wij->wij", x98)
    .add 342 (.ein [(340, [0, 1, 2])] [0, 1, 2]) 1 1,
    -- 2728: del x98
    .del 340,
    -- 2729: x99 += einsum("wij->wij", g.aa.boo)
    .add 341 (.ein [(0, [0, 1, 2])] [0, 1, 2]) 1 1,
    -- 2730: x100 = np.zeros((nocc[0], nvir[0]), dtype=types[float])
    .zeros 343 [0, 1],
    -- 2731: x100 += einsum("wia,wij->ja", u11.aa, x99)
    .add 343 (.ein [(24, [0, 1, 2]), (341, [0, 1, 3])] [3, 2]) 1 1,
    -- 2732: x121 += einsum("ia->ia", x100) * -1
    .add 147 (.ein [(343, [0, 1])] [0, 1]) (-1) 1,
    -- 2733: del x100
    .del 343,
    -- 2734: x222 = np.zeros((nbos, nocc[0], nocc[0]), dtype=types[float])
    .zeros 344 [2, 0, 0],
    -- 2735: x222 += einsum("wx,wij->xij", s2, x99)
    .add 344 (.ein [(49, [0, 1]), (341, [0, 2, 3])] [1, 2, 3]) 1 1,
    -- 2736: x223 += einsum("wij->wij", x222)
    .add 221 (.ein [(344, [0, 1, 2])] [0, 1, 2]) 1 1,
    -- 2737: del x222
    .del 344,
    -- 2738: x575 += einsum("wij,wxia->xja", x99, u12.aa)
    .add 178 (.ein [(341, [0, 1, 2]), (25, [0, 3, 1, 4])] [3, 2, 4]) 1 1,
    -- 2739: x101 = np.zeros((nocc[0], nocc[0]), dtype=types[float])
    .zeros 345 [0, 0],
    -- 2740: x101 += einsum("w,wij->ij", s1, g.aa.boo)
    .add 345 (.ein [(18, [0]), (0, [0, 1, 2])] [1, 2]) 1 1,
    -- 2741: x109 += einsum("ij->ij", x101)
    .add 149 (.ein [(345, [0, 1])] [0, 1]) 1 1,
    -- 2742: x374 = np.zeros((nocc[0], nocc[0]), dtype=types[float])
    .zeros 346 [0, 0],
    -- 2743: x374 += einsum("ij->ij", x101)
    .add 346 (.ein [(345, [0, 1])] [0, 1]) 1 1,
    -- 2744: del x101
    .del 345,
    -- 2745: x102 = np.zeros((nocc[0], nocc[0]), dtype=types[float])
    .zeros 347 [0, 0],
    -- 2746: x102 += einsum("wia,wja->ij", g.aa.bov, u11.aa)
    .add 347 (.ein [(2, [0, 1, 2]), (24, [0, 3, 2])] [1, 3]) 1 1,
    -- 2747: x109 += einsum("ij->ij", x102)
    .add 149 (.ein [(347, [0, 1])] [0, 1]) 1 1,
    -- 2748: x374 += einsum("ij->ij", x102)
    .add 346 (.ein [(347, [0, 1])] [0, 1]) 1 1,
    -- 2749: del x102
    .del 347,
    -- 2750: x103 = np.zeros((nocc[0], nocc[0]), dtype=types[float])
    .zeros 348 [0, 0],
    -- 2751: x103 += einsum("ia,jkia->jk", t1.bb, v.aabb.ooov)
    .add 348 (.ein [(12, [0, 1]), (11, [2, 3, 0, 1])] [2, 3]) 1 1,
    -- 2752: x109 += einsum("ij->ij", x103)
    .add 149 (.ein [(348, [0, 1])] [0, 1]) 1 1,
    -- 2753: x378 = np.zeros((nocc[0], nocc[0]), dtype=types[float])
    .zeros 349 [0, 0],
    -- 2754: x378 += einsum("ij->ij", x103)
    .add 349 (.ein [(348, [0, 1])] [0, 1]) 1 1,
    -- 2755: del x103
    .del 348,
    -- 2756: x104 = np.zeros((nocc[0], nocc[0]), dtype=types[float])
    .zeros 350 [0, 0],
    -- 2757: x104 += einsum("ijab,kajb->ik", t2.abab, v.aabb.ovov)
    .add 350 (.ein [(9, [0, 1, 2, 3]), (14, [4, 2, 1, 3])] [0, 4]) 1 1,
    -- 2758: x109 += einsum("ij->ji", x104)
    .add 149 (.ein [(350, [0, 1])] [1, 0]) 1 1,
    -- 2759: x405 += einsum("ij->ij", x104)
    .add 120 (.ein [(350, [0, 1])] [0, 1]) 1 1,
    -- 2760: del x104
    .del 350,
    -- 2761: x406 = np.zeros((nocc[0], nocc[0], nvir[0], nvir[0]), dtype=types[float])
    .zeros 351 [0, 0, 1, 1],
    -- 2762: x406 += einsum("ij,abik->kjab", x405, l2.aaaa)
    .add 351 (.ein [(120, [0, 1]), (26, [2, 3, 0, 4])] [4, 1, 2, 3]) 1 1,
    -- 2763: del x405
    .del 120,
    -- 2764: x414 += einsum("ijab->ijba", x406) * -1
    .add 259 (.ein [(351, [0, 1, 2, 3])] [0, 1, 3, 2]) (-1) 1,
    -- 2765: del x406
    .del 351,
    -- 2766: x106 = np.zeros((nocc[0], nocc[0], nocc[0], nvir[0]), dtype=types[float])
    .zeros 352 [0, 0, 0, 1],
    -- 2767: x106 += einsum("ijka->ikja", v.aaaa.ooov) * -1
    .add 352 (.ein [(27, [0, 1, 2, 3])] [0, 2, 1, 3]) (-1) 1,
    -- 2768: x106 += einsum("ijka->kija", v.aaaa.ooov)
    .add 352 (.ein [(27, [0, 1, 2, 3])] [2, 0, 1, 3]) 1 1,
    -- 2769: x107 = np.zeros((nocc[0], nocc[0]), dtype=types[float])
    .zeros 353 [0, 0],
    -- 2770: x107 += einsum("ia,jika->jk", t1.aa, x106)
    .add 353 (.ein [(13, [0, 1]), (352, [2, 0, 3, 1])] [2, 3]) 1 1,
    -- 2771: x109 += einsum("ij->ij", x107) * -1
    .add 149 (.ein [(353, [0, 1])] [0, 1]) (-1) 1,
    -- 2772: del x107
    .del 353,
    -- 2773: x218 = np.zeros((nbos, nocc[0], nocc[0]), dtype=types[float])
    .zeros 354 [2, 0, 0],
    -- 2774: x218 += einsum("wia,jika->wjk", u11.aa, x106)
    .add 354 (.ein [(24, [0, 1, 2]), (352, [3, 1, 4, 2])] [0, 3, 4]) 1 1,
    -- 2775: x223 += einsum("wij->wij", x218) * -1
    .add 221 (.ein [(354, [0, 1, 2])] [0, 1, 2]) (-1) 1,
    -- 2776: del x218
    .del 354,
    -- 2777: x109 += einsum("ij->ij", f.aa.oo)
    .add 149 (.ein [(55, [0, 1])] [0, 1]) 1 1,
    -- 2778: x110 = np.zeros((nocc[0], nvir[0]), dtype=types[float])
    .zeros 355 [0, 1],
    -- 2779: x110 += einsum("ia,ij->ja", t1.aa, x109)
    .add 355 (.ein [(13, [0, 1]), (149, [0, 2])] [2, 1]) 1 1,
    -- 2780: x121 += einsum("ia->ia", x110) * -1
    .add 147 (.ein [(355, [0, 1])] [0, 1]) (-1) 1,
    -- 2781: del x110
    .del 355,
    -- 2782: x545 = np.zeros((nocc[0], nocc[1], nvir[0], nvir[1]), dtype=types[float])
    .zeros 356 [0, 4, 1, 5],
    -- 2783: x545 += einsum("ij,abjk->ikab", x109, l2.abab)
    .add 356 (.ein [(149, [0, 1]), (8, [2, 3, 1, 4])] [0, 4, 2, 3]) 1 1,
    -- 2784: l2new_baba += einsum("ijab->baji", x545) * -1
    .add 91 (.ein [(356, [0, 1, 2, 3])] [3, 2, 1, 0]) (-1) 1,
    -- 2785: l2new_abab += einsum("ijab->abij", x545) * -1
    .add 92 (.ein [(356, [0, 1, 2, 3])] [2, 3, 0, 1]) (-1) 1,
    -- 2786: del x545
    .del 356,
    -- 2787: x575 += einsum("ij,wia->wja", x109, u11.aa)
    .add 178 (.ein [(149, [0, 1]), (24, [2, 0, 3])] [2, 1, 3]) 1 1,
    -- 2788: l1new_aa += einsum("ai,ji->aj", l1.aa, x109) * -1
    .add 84 (.ein [(28, [0, 1]), (149, [2, 1])] [0, 2]) (-1) 1,
    -- 2789: lu12new_aa += einsum("ij,wxaj->xwai", x109, lu12.aa) * -1
    .add 227 (.ein [(149, [0, 1]), (33, [2, 3, 4, 1])] [3, 2, 4, 0]) (-1) 1,
    -- 2790: del x109
    .del 149,
    -- 2791: x111 = np.zeros((nvir[0], nvir[0]), dtype=types[float])
    .zeros 357 [1, 1],
    -- 2792: x111 += einsum("w,wab->ab", s1, g.aa.bvv)
    .add 357 (.ein [(18, [0]), (3, [0, 1, 2])] [1, 2]) 1 1,
    -- 2793: x115 = np.zeros((nvir[0], nvir[0]), dtype=types[float])
    .zeros 358 [1, 1],
    -- 2794: x115 += einsum("ab->ab", x111)
    .add 358 (.ein [(357, [0, 1])] [0, 1]) 1 1,
    -- 2795: x367 = np.zeros((nvir[0], nvir[0]), dtype=types[float])
    .zeros 359 [1, 1],
    -- 2796: x367 += einsum("ab->ab", x111)
    .add 359 (.ein [(357, [0, 1])] [0, 1]) 1 1,
    -- 2797: x543 += einsum("ab->ab", x111)
    .add 303 (.ein [(357, [0, 1])] [0, 1]) 1 1,
    -- 2798: del x111
    .del 357,
    -- 2799: x112 = np.zeros((nvir[0], nvir[0]), dtype=types[float])
    .zeros 360 [1, 1],
    -- 2800: x112 += einsum("ia,iabc->bc", t1.bb, v.bbaa.ovvv)
    .add 360 (.ein [(12, [0, 1]), (15, [0, 1, 2, 3])] [2, 3]) 1 1,
    -- 2801: x115 += einsum("ab->ab", x112)
    .add 358 (.ein [(360, [0, 1])] [0, 1]) 1 1,
    -- 2802: x370 = np.zeros((nvir[0], nvir[0]), dtype=types[float])
    .zeros 361 [1, 1],
    -- 2803: x370 += einsum("ab->ab", x112)
    .add 361 (.ein [(360, [0, 1])] [0, 1]) 1 1,
    -- 2804: x543 += einsum("ab->ab", x112)
    .add 303 (.ein [(360, [0, 1])] [0, 1]) 1 1,
    -- 2805: del x112
    .del 360,
    -- 2806: x113 = np.zeros((nocc[0], nvir[0], nvir[0], nvir[0]), dtype=types[float])
    .zeros 362 [0, 1, 1, 1],
    -- 2807: x113 += einsum("iabc->ibac", v.aaaa.ovvv) * -1
    .add 362 (.ein [(22, [0, 1, 2, 3])] [0, 2, 1, 3]) (-1) 1,
    -- 2808: x113 += einsum("iabc->ibca", v.aaaa.ovvv)
    .add 362 (.ein [(22, [0, 1, 2, 3])] [0, 2, 3, 1]) 1 1,
    -- 2809: x114 = np.zeros((nvir[0], nvir[0]), dtype=types[float])
    .zeros 363 [1, 1],
    -- 2810: x114 += einsum("ia,ibac->bc", t1.aa, x113)
    .add 363 (.ein [(13, [0, 1]), (362, [0, 2, 1, 3])] [2, 3]) 1 1,
    -- 2811: x115 += einsum("ab->ab", x114) * -1
    .add 358 (.ein [(363, [0, 1])] [0, 1]) (-1) 1,
    -- 2812: x543 += einsum("ab->ab", x114) * -1
    .add 303 (.ein [(363, [0, 1])] [0, 1]) (-1) 1,
    -- 2813: del x114
    .del 363,
    -- 2814: x572 = np.zeros((nbos, nvir[0], nvir[0]), dtype=types[float])
    .zeros 364 [2, 1, 1],
    -- 2815: x572 += einsum("wia,ibac->wbc", u11.aa, x113) * -1
    .add 364 (.ein [(24, [0, 1, 2]), (362, [1, 3, 2, 4])] [0, 3, 4]) (-1) 1,
    -- 2816: del x113
    .del 362,
    -- 2817: x115 += einsum("ab->ab", f.aa.vv)
    .add 358 (.ein [(56, [0, 1])] [0, 1]) 1 1,
    -- 2818: x116 = np.zeros((nocc[0], nvir[0]), dtype=types[float])
    .zeros 365 [0, 1],
    -- 2819: x116 += einsum("ia,ba->ib", t1.aa, x115)
    .add 365 (.ein [(13, [0, 1]), (358, [2, 1])] [0, 2]) 1 1,
    -- 2820: x121 += einsum("ia->ia", x116)
    .add 147 (.ein [(365, [0, 1])] [0, 1]) 1 1,
    -- 2821: del x116
    .del 365,
    -- 2822: l1new_aa += einsum("ai,ab->bi", l1.aa, x115)
    .add 84 (.ein [(28, [0, 1]), (358, [0, 2])] [2, 1]) 1 1,
    -- 2823: del x115
    .del 358,
    -- 2824: x117 = np.zeros((nbos), dtype=types[float])
    .zeros 366 [2],
    -- 2825: x117 += einsum("ia,wia->w", t1.aa, g.aa.bov)
    .add 366 (.ein [(13, [0, 1]), (2, [2, 0, 1])] [2]) 1 1,
    -- 2826: x119 = np.zeros((nbos), dtype=types[float])
    .zeros 367 [2],
    -- 2827: x119 += einsum("w->w", x117)
    .add 367 (.ein [(366, [0])] [0]) 1 1,
    -- 2828: x577 = np.zeros((nbos), dtype=types[float])
    .zeros 368 [2],
    -- 2829: x577 += einsum("w->w", x117)
    .add 368 (.ein [(366, [0])] [0]) 1 1,
    -- 2830: del x117
    .del 366,
    -- 2831: x118 = np.zeros((nbos), dtype=types[float])
    .zeros 369 [2],
    -- 2832: x118 += einsum("ia,wia->w", t1.bb, g.bb.bov)
    .add 369 (.ein [(12, [0, 1]), (6, [2, 0, 1])] [2]) 1 1,
    -- 2833: x119 += einsum("w->w", x118)
    .add 367 (.ein [(369, [0])] [0]) 1 1,
    -- 2834: x577 += einsum("w->w", x118)
    .add 368 (.ein [(369, [0])] [0]) 1 1,
    -- 2835: del x118
    .del 369,
    -- 2836: x119 += einsum("w->w", G)
    .add 367 (.ein [(57, [0])] [0]) 1 1,
    -- 2837: x120 = np.zeros((nocc[0], nvir[0]), dtype=types[float])
    .zeros 370 [0, 1],
    -- 2838: x120 += einsum("w,wia->ia", x119, u11.aa)
    .add 370 (.ein [(367, [0]), (24, [0, 1, 2])] [1, 2]) 1 1,
    -- 2839: x121 += einsum("ia->ia", x120)
    .add 147 (.ein [(370, [0, 1])] [0, 1]) 1 1,
    -- 2840: del x120
    .del 370,
    -- 2841: x158 = np.zeros((nocc[1], nvir[1]), dtype=types[float])
    .zeros 371 [4, 5],
    -- 2842: x158 += einsum("w,wia->ia", x119, u11.bb)
    .add 371 (.ein [(367, [0]), (50, [0, 1, 2])] [1, 2]) 1 1,
    -- 2843: x159 += einsum("ia->ia", x158)
    .add 211 (.ein [(371, [0, 1])] [0, 1]) 1 1,
    -- 2844: del x158
    .del 371,
    -- 2845: x257 = np.zeros((nbos), dtype=types[float])
    .zeros 372 [2],
    -- 2846: x257 += einsum("w,wx->x", x119, s2)
    .add 372 (.ein [(367, [0]), (49, [0, 1])] [1]) 1 1,
    -- 2847: x258 += einsum("w->w", x257)
    .add 224 (.ein [(372, [0])] [0]) 1 1,
    -- 2848: del x257
    .del 372,
    -- 2849: x571 += einsum("w,wxia->xia", x119, u12.bb) * -1
    .add 286 (.ein [(367, [0]), (29, [0, 1, 2, 3])] [1, 2, 3]) (-1) 1,
    -- 2850: x575 += einsum("w,wxia->xia", x119, u12.aa) * -1
    .add 178 (.ein [(367, [0]), (25, [0, 1, 2, 3])] [1, 2, 3]) (-1) 1,
    -- 2851: del x119
    .del 367,
    -- 2852: x121 += einsum("ai->ia", f.aa.vo)
    .add 147 (.ein [(58, [0, 1])] [1, 0]) 1 1,
    -- 2853: l1new_aa += einsum("ia,ijab->bj", x121, x34)
    .add 84 (.ein [(147, [0, 1]), (185, [0, 2, 1, 3])] [3, 2]) 1 1,
    -- 2854: l1new_bb += einsum("ia,abij->bj", x121, l2.abab)
    .add 85 (.ein [(147, [0, 1]), (8, [1, 2, 0, 3])] [2, 3]) 1 1,
    -- 2855: ls1new = np.zeros((nbos), dtype=types[float])
    .zeros 373 [2],
    -- 2856: ls1new += einsum("ia,wai->w", x121, lu11.aa)
    .add 373 (.ein [(147, [0, 1]), (51, [2, 1, 0])] [2]) 1 1,
    -- 2857: ls2new = np.zeros((nbos, nbos), dtype=types[float])
    .zeros 374 [2, 2],
    -- 2858: ls2new += einsum("ia,wxai->xw", x121, lu12.aa)
    .add 374 (.ein [(147, [0, 1]), (33, [2, 3, 1, 0])] [3, 2]) 1 1,
    -- 2859: del x121
    .del 147,
    -- 2860: x124 = np.zeros((nocc[1], nvir[1]), dtype=types[float])
    .zeros 375 [4, 5],
    -- 2861: x124 += einsum("w,wai->ia", s1, g.bb.bvo)
    .add 375 (.ein [(18, [0]), (5, [0, 1, 2])] [2, 1]) 1 1,
    -- 2862: x159 += einsum("ia->ia", x124)
    .add 211 (.ein [(375, [0, 1])] [0, 1]) 1 1,
    -- 2863: del x124
    .del 375,
    -- 2864: x125 = np.zeros((nocc[1], nvir[1]), dtype=types[float])
    .zeros 376 [4, 5],
    -- 2865: x125 += einsum("wab,wib->ia", g.bb.bvv, u11.bb)
    .add 376 (.ein [(7, [0, 1, 2]), (50, [0, 3, 2])] [3, 1]) 1 1,
    -- 2866: x159 += einsum("ia->ia", x125)
    .add 211 (.ein [(376, [0, 1])] [0, 1]) 1 1,
    -- 2867: del x125
    .del 376,
    -- 2868: x126 = np.zeros((nocc[1], nvir[1]), dtype=types[float])
    .zeros 377 [4, 5],
    -- 2869: x126 += einsum("ia,iabj->jb", t1.aa, v.aabb.ovvo)
    .add 377 (.ein [(13, [0, 1]), (40, [0, 1, 2, 3])] [3, 2]) 1 1,
    -- 2870: x159 += einsum("ia->ia", x126)
    .add 211 (.ein [(377, [0, 1])] [0, 1]) 1 1,
    -- 2871: del x126
    .del 377,
    -- 2872: x127 = np.zeros((nocc[1], nvir[1]), dtype=types[float])
    .zeros 378 [4, 5],
    -- 2873: x127 += einsum("ijab,iacb->jc", t2.abab, v.aabb.ovvv)
    .add 378 (.ein [(9, [0, 1, 2, 3]), (17, [0, 2, 4, 3])] [1, 4]) 1 1,
    -- 2874: x159 += einsum("ia->ia", x127)
    .add 211 (.ein [(378, [0, 1])] [0, 1]) 1 1,
    -- 2875: del x127
    .del 378,
    -- 2876: x128 = np.zeros((nocc[1], nvir[1]), dtype=types[float])
    .zeros 379 [4, 5],
    -- 2877: x128 += einsum("ijab,ikja->kb", t2.bbbb, v.bbbb.ooov)
    .add 379 (.ein [(34, [0, 1, 2, 3]), (59, [0, 4, 1, 2])] [4, 3]) 1 1,
    -- 2878: x159 += einsum("ia->ia", x128)
    .add 211 (.ein [(379, [0, 1])] [0, 1]) 1 1,
    -- 2879: del x128
    .del 379,
    -- 2880: x130 = np.zeros((nocc[1], nocc[1], nocc[1], nvir[1]), dtype=types[float])
    .zeros 380 [4, 4, 4, 5],
    -- 2881: x130 += einsum("ia,jbka->ijkb", t1.bb, v.bbbb.ovov)
    .add 380 (.ein [(12, [0, 1]), (53, [2, 3, 4, 1])] [0, 2, 4, 3]) 1 1,
    -- 2882: x131 = np.zeros((nocc[1], nocc[1], nocc[1], nvir[1]), dtype=types[float])
    .zeros 381 [4, 4, 4, 5],
    -- 2883: x131 += einsum("ijka->jkia", x130) * -1
    .add 381 (.ein [(380, [0, 1, 2, 3])] [1, 2, 0, 3]) (-1) 1,
    -- 2884: x131 += einsum("ijka->kjia", x130)
    .add 381 (.ein [(380, [0, 1, 2, 3])] [2, 1, 0, 3]) 1 1,
    -- 2885: x275 = np.zeros((nocc[1], nocc[1], nocc[1], nocc[1]), dtype=types[float])
    .zeros 382 [4, 4, 4, 4],
    -- 2886: x275 += einsum("ia,jkla->ijkl", t1.bb, x130)
    .add 382 (.ein [(12, [0, 1]), (380, [2, 3, 4, 1])] [0, 2, 3, 4]) 1 1,
    -- 2887: x276 = np.zeros((nocc[1], nocc[1], nocc[1], nocc[1]), dtype=types[float])
    .zeros 383 [4, 4, 4, 4],
    -- 2888: x276 += einsum("ijkl->ijkl", x275)
    .add 383 (.ein [(382, [0, 1, 2, 3])] [0, 1, 2, 3]) 1 1,
    -- 2889: x495 = np.zeros((nocc[1], nocc[1], nocc[1], nocc[1]), dtype=types[float])
    .zeros 384 [4, 4, 4, 4],
    -- 2890: x495 += einsum("ijkl->ijkl", x275)
    .add 384 (.ein [(382, [0, 1, 2, 3])] [0, 1, 2, 3]) 1 1,
    -- 2891: del x275
    .del 382,
    -- 2892: x279 = np.zeros((nocc[1], nocc[1], nocc[1], nvir[1]), dtype=types[float])
    .zeros 385 [4, 4, 4, 5],
    -- 2893: x279 += einsum("ijka->ikja", x130)
    .add 385 (.ein [(380, [0, 1, 2, 3])] [0, 2, 1, 3]) 1 1,
    -- 2894: x279 += einsum("ijka->ijka", x130) * -1
    .add 385 (.ein [(380, [0, 1, 2, 3])] [0, 1, 2, 3]) (-1) 1,
    -- 2895: x290 = np.zeros((nocc[1], nocc[1], nocc[1], nvir[1]), dtype=types[float])
    .zeros 386 [4, 4, 4, 5],
    -- 2896: x290 += einsum("ijka->jkia", x130)
    .add 386 (.ein [(380, [0, 1, 2, 3])] [1, 2, 0, 3]) 1 1,
    -- 2897: x290 += einsum("ijka->kjia", x130) * -1
    .add 386 (.ein [(380, [0, 1, 2, 3])] [2, 1, 0, 3]) (-1) 1,
    -- 2898: x463 = np.zeros((nocc[1], nocc[1], nocc[1], nvir[1]), dtype=types[float])
    .zeros 387 [4, 4, 4, 5],
    -- 2899: x463 += einsum("ijka->ijka", x130)
    .add 387 (.ein [(380, [0, 1, 2, 3])] [0, 1, 2, 3]) 1 1,
    -- 2900: x470 = np.zeros((nocc[1], nocc[1], nocc[1], nvir[1]), dtype=types[float])
    .zeros 388 [4, 4, 4, 5],
    -- 2901: x470 += einsum("ijka->ikja", x130) * -1
    .add 388 (.ein [(380, [0, 1, 2, 3])] [0, 2, 1, 3]) (-1) 1,
    -- 2902: x470 += einsum("ijka->ijka", x130)
    .add 388 (.ein [(380, [0, 1, 2, 3])] [0, 1, 2, 3]) 1 1,
    -- 2903: l2new_baba += einsum("ijka,jklb->bali", x1, x470)
    .add 91 (.ein [(86, [0, 1, 2, 3]), (388, [1, 2, 4, 5])] [5, 3, 4, 0]) 1 1,
    -- 2904: x565 = np.zeros((nocc[1], nocc[1], nocc[1], nvir[1]), dtype=types[float])
    .zeros 389 [4, 4, 4, 5],
    -- 2905: x565 += einsum("ijka->ikja", x130)
    .add 389 (.ein [(380, [0, 1, 2, 3])] [0, 2, 1, 3]) 1 1,
    -- 2906: x565 += einsum("ijka->ijka", x130) * -1
    .add 389 (.ein [(380, [0, 1, 2, 3])] [0, 1, 2, 3]) (-1) 1,
    -- 2907: del x130
    .del 380,
    -- 2908: l2new_abab += einsum("ijka,jklb->abil", x1, x565) * -1
    .add 92 (.ein [(86, [0, 1, 2, 3]), (389, [1, 2, 4, 5])] [3, 5, 0, 4]) (-1) 1,
    -- 2909: x131 += einsum("ijka->ikja", v.bbbb.ooov)
    .add 381 (.ein [(59, [0, 1, 2, 3])] [0, 2, 1, 3]) 1 1,
    -- 2910: x132 = np.zeros((nocc[1], nvir[1]), dtype=types[float])
    .zeros 390 [4, 5],
    -- 2911: x132 += einsum("ijab,jika->kb", t2.bbbb, x131)
    .add 390 (.ein [(34, [0, 1, 2, 3]), (381, [1, 0, 4, 2])] [4, 3]) 1 1,
    -- 2912: del x131
    .del 381,
    -- 2913: x159 += einsum("ia->ia", x132) * -1
    .add 211 (.ein [(390, [0, 1])] [0, 1]) (-1) 1,
    -- 2914: del x132
    .del 390,
    -- 2915: x136 = np.zeros((nocc[1], nocc[1], nvir[1], nvir[1]), dtype=types[float])
    .zeros 391 [4, 4, 5, 5],
    -- 2916: x136 += einsum("iabj->ijba", v.bbbb.ovvo)
    .add 391 (.ein [(60, [0, 1, 2, 3])] [0, 3, 2, 1]) 1 1,
    -- 2917: x136 += einsum("ijab->ijab", v.bbbb.oovv) * -1
    .add 391 (.ein [(61, [0, 1, 2, 3])] [0, 1, 2, 3]) (-1) 1,
    -- 2918: x137 = np.zeros((nocc[1], nvir[1]), dtype=types[float])
    .zeros 392 [4, 5],
    -- 2919: x137 += einsum("ia,ijba->jb", t1.bb, x136)
    .add 392 (.ein [(12, [0, 1]), (391, [0, 2, 3, 1])] [2, 3]) 1 1,
    -- 2920: x159 += einsum("ia->ia", x137)
    .add 211 (.ein [(392, [0, 1])] [0, 1]) 1 1,
    -- 2921: del x137
    .del 392,
    -- 2922: x282 = np.zeros((nocc[1], nocc[1], nocc[1], nvir[1]), dtype=types[float])
    .zeros 393 [4, 4, 4, 5],
    -- 2923: x282 += einsum("ia,jkba->ijkb", t1.bb, x136)
    .add 393 (.ein [(12, [0, 1]), (391, [2, 3, 4, 1])] [0, 2, 3, 4]) 1 1,
    -- 2924: x285 += einsum("ijka->ijka", x282)
    .add 213 (.ein [(393, [0, 1, 2, 3])] [0, 1, 2, 3]) 1 1,
    -- 2925: x295 += einsum("ijka->ijka", x282)
    .add 214 (.ein [(393, [0, 1, 2, 3])] [0, 1, 2, 3]) 1 1,
    -- 2926: del x282
    .del 393,
    -- 2927: x571 += einsum("wia,ijba->wjb", u11.bb, x136) * -1
    .add 286 (.ein [(50, [0, 1, 2]), (391, [1, 3, 4, 2])] [0, 3, 4]) (-1) 1,
    -- 2928: x138 = np.zeros((nbos, nocc[1], nocc[1]), dtype=types[float])
    .zeros 394 [2, 4, 4],
    -- 2929: x138 += einsum("ia,wja->wji", t1.bb, g.bb.bov)
    .add 394 (.ein [(12, [0, 1]), (6, [2, 3, 1])] [2, 3, 0]) 1 1,
    -- 2930: x139 = np.zeros((nbos, nocc[1], nocc[1]), dtype=types[float])
    .zeros 395 [2, 4, 4],
    -- 2931: x139 += einsum("wij->wij", x138)
    .add 395 (.ein [(394, [0, 1, 2])] [0, 1, 2]) 1 1,
    -- 2932: x601 = np.zeros((nbos, nocc[1], nocc[1]), dtype=types[float])
    .zeros 396 [2, 4, 4],
    -- 2933: x601 += einsum("wij->wij", x138)
    .add 396 (.ein [(394, [0, 1, 2])] [0, 1, 2]) 1 1,
    -- 2934: x139 += einsum("wij->wij", g.bb.boo)
    .add 395 (.ein [(4, [0, 1, 2])] [0, 1, 2]) 1 1,
    -- 2935: x140 = np.zeros((nocc[1], nvir[1]), dtype=types[float])
    .zeros 397 [4, 5],
    -- 2936: x140 += einsum("wia,wij->ja", u11.bb, x139)
    .add 397 (.ein [(50, [0, 1, 2]), (395, [0, 1, 3])] [3, 2]) 1 1,
    -- 2937: x159 += einsum("ia->ia", x140) * -1
    .add 211 (.ein [(397, [0, 1])] [0, 1]) (-1) 1,
    -- 2938: del x140
    .del 397,
    -- 2939: x332 = np.zeros((nbos, nocc[1], nocc[1]), dtype=types[float])
    .zeros 398 [2, 4, 4],
    -- 2940: x332 += einsum("wx,wij->xij", s2, x139)
    .add 398 (.ein [(49, [0, 1]), (395, [0, 2, 3])] [1, 2, 3]) 1 1,
    -- 2941: x333 += einsum("wij->wij", x332)
    .add 337 (.ein [(398, [0, 1, 2])] [0, 1, 2]) 1 1,
    -- 2942: del x332
    .del 398,
    -- 2943: x571 += einsum("wij,wxia->xja", x139, u12.bb)
    .add 286 (.ein [(395, [0, 1, 2]), (29, [0, 3, 1, 4])] [3, 2, 4]) 1 1,
    -- 2944: x141 = np.zeros((nocc[1], nocc[1]), dtype=types[float])
    .zeros 399 [4, 4],
    -- 2945: x141 += einsum("w,wij->ij", s1, g.bb.boo)
    .add 399 (.ein [(18, [0]), (4, [0, 1, 2])] [1, 2]) 1 1,
    -- 2946: x150 += einsum("ij->ij", x141)
    .add 334 (.ein [(399, [0, 1])] [0, 1]) 1 1,
    -- 2947: x449 = np.zeros((nocc[1], nocc[1]), dtype=types[float])
    .zeros 400 [4, 4],
    -- 2948: x449 += einsum("ij->ij", x141)
    .add 400 (.ein [(399, [0, 1])] [0, 1]) 1 1,
    -- 2949: del x141
    .del 399,
    -- 2950: x142 = np.zeros((nocc[1], nocc[1]), dtype=types[float])
    .zeros 401 [4, 4],
    -- 2951: x142 += einsum("wia,wja->ij", g.bb.bov, u11.bb)
    .add 401 (.ein [(6, [0, 1, 2]), (50, [0, 3, 2])] [1, 3]) 1 1,
    -- 2952: x150 += einsum("ij->ij", x142)
    .add 334 (.ein [(401, [0, 1])] [0, 1]) 1 1,
    -- 2953: x449 += einsum("ij->ij", x142)
    .add 400 (.ein [(401, [0, 1])] [0, 1]) 1 1,
    -- 2954: del x142
    .del 401,
    -- 2955: x143 = np.zeros((nocc[1], nocc[1]), dtype=types[float])
    .zeros 402 [4, 4],
    -- 2956: x143 += einsum("ia,iajk->jk", t1.aa, v.aabb.ovoo)
    .add 402 (.ein [(13, [0, 1]), (10, [0, 1, 2, 3])] [2, 3]) 1 1,
    -- 2957: x150 += einsum("ij->ij", x143)
    .add 334 (.ein [(402, [0, 1])] [0, 1]) 1 1,
    -- 2958: x453 = np.zeros((nocc[1], nocc[1]), dtype=types[float])
    .zeros 403 [4, 4],
    -- 2959: x453 += einsum("ij->ij", x143)
    .add 403 (.ein [(402, [0, 1])] [0, 1]) 1 1,
    -- 2960: del x143
    .del 402,
    -- 2961: x144 = np.zeros((nocc[1], nocc[1]), dtype=types[float])
    .zeros 404 [4, 4],
    -- 2962: x144 += einsum("ijab,iakb->jk", t2.abab, v.aabb.ovov)
    .add 404 (.ein [(9, [0, 1, 2, 3]), (14, [0, 2, 4, 3])] [1, 4]) 1 1,
    -- 2963: x150 += einsum("ij->ji", x144)
    .add 334 (.ein [(404, [0, 1])] [1, 0]) 1 1,
    -- 2964: x482 += einsum("ij->ij", x144)
    .add 319 (.ein [(404, [0, 1])] [0, 1]) 1 1,
    -- 2965: del x144
    .del 404,
    -- 2966: x483 = np.zeros((nocc[1], nocc[1], nvir[1], nvir[1]), dtype=types[float])
    .zeros 405 [4, 4, 5, 5],
    -- 2967: x483 += einsum("ij,abik->kjab", x482, l2.bbbb)
    .add 405 (.ein [(319, [0, 1]), (35, [2, 3, 0, 4])] [4, 1, 2, 3]) 1 1,
    -- 2968: del x482
    .del 319,
    -- 2969: x491 = np.zeros((nocc[1], nocc[1], nvir[1], nvir[1]), dtype=types[float])
    .zeros 406 [4, 4, 5, 5],
    -- 2970: x491 += einsum("ijab->ijba", x483) * -1
    .add 406 (.ein [(405, [0, 1, 2, 3])] [0, 1, 3, 2]) (-1) 1,
    -- 2971: del x483
    .del 405,
    -- 2972: x145 = np.zeros((nocc[1], nocc[1], nvir[1], nvir[1]), dtype=types[float])
    .zeros 407 [4, 4, 5, 5],
    -- 2973: x145 += einsum("iajb->jiab", v.bbbb.ovov)
    .add 407 (.ein [(53, [0, 1, 2, 3])] [2, 0, 1, 3]) 1 1,
    -- 2974: x145 += einsum("iajb->jiba", v.bbbb.ovov) * -1
    .add 407 (.ein [(53, [0, 1, 2, 3])] [2, 0, 3, 1]) (-1) 1,
    -- 2975: x146 = np.zeros((nocc[1], nocc[1]), dtype=types[float])
    .zeros 408 [4, 4],
    -- 2976: x146 += einsum("ijab,ikab->jk", t2.bbbb, x145)
    .add 408 (.ein [(34, [0, 1, 2, 3]), (407, [0, 4, 2, 3])] [1, 4]) 1 1,
    -- 2977: x150 += einsum("ij->ji", x146) * -1
    .add 334 (.ein [(408, [0, 1])] [1, 0]) (-1) 1,
    -- 2978: del x146
    .del 408,
    -- 2979: x516 = np.zeros((nocc[1], nocc[1], nvir[1], nvir[1]), dtype=types[float])
    .zeros 409 [4, 4, 5, 5],
    -- 2980: x516 += einsum("ijab,ikac->kjcb", x145, x52)
    .add 409 (.ein [(407, [0, 1, 2, 3]), (236, [0, 4, 2, 5])] [4, 1, 5, 3]) 1 1,
    -- 2981: x518 = np.zeros((nocc[1], nocc[1], nvir[1], nvir[1]), dtype=types[float])
    .zeros 410 [4, 4, 5, 5],
    -- 2982: x518 += einsum("ijab->jiab", x516)
    .add 410 (.ein [(409, [0, 1, 2, 3])] [1, 0, 2, 3]) 1 1,
    -- 2983: del x516
    .del 409,
    -- 2984: x539 = np.zeros((nvir[1], nvir[1]), dtype=types[float])
    .zeros 411 [5, 5],
    -- 2985: x539 += einsum("ijab,ijbc->ac", t2.bbbb, x145)
    .add 411 (.ein [(34, [0, 1, 2, 3]), (407, [0, 1, 3, 4])] [2, 4]) 1 1,
    -- 2986: x540 = np.zeros((nvir[1], nvir[1]), dtype=types[float])
    .zeros 412 [5, 5],
    -- 2987: x540 += einsum("ab->ab", x539) * -1
    .add 412 (.ein [(411, [0, 1])] [0, 1]) (-1) 1,
    -- 2988: del x539
    .del 411,
    -- 2989: x147 = np.zeros((nocc[1], nocc[1], nocc[1], nvir[1]), dtype=types[float])
    .zeros 413 [4, 4, 4, 5],
    -- 2990: x147 += einsum("ijka->ikja", v.bbbb.ooov) * -1
    .add 413 (.ein [(59, [0, 1, 2, 3])] [0, 2, 1, 3]) (-1) 1,
    -- 2991: x147 += einsum("ijka->kija", v.bbbb.ooov)
    .add 413 (.ein [(59, [0, 1, 2, 3])] [2, 0, 1, 3]) 1 1,
    -- 2992: x148 = np.zeros((nocc[1], nocc[1]), dtype=types[float])
    .zeros 414 [4, 4],
    -- 2993: x148 += einsum("ia,jika->jk", t1.bb, x147)
    .add 414 (.ein [(12, [0, 1]), (413, [2, 0, 3, 1])] [2, 3]) 1 1,
    -- 2994: x150 += einsum("ij->ij", x148) * -1
    .add 334 (.ein [(414, [0, 1])] [0, 1]) (-1) 1,
    -- 2995: del x148
    .del 414,
    -- 2996: x328 = np.zeros((nbos, nocc[1], nocc[1]), dtype=types[float])
    .zeros 415 [2, 4, 4],
    -- 2997: x328 += einsum("wia,jika->wjk", u11.bb, x147)
    .add 415 (.ein [(50, [0, 1, 2]), (413, [3, 1, 4, 2])] [0, 3, 4]) 1 1,
    -- 2998: x333 += einsum("wij->wij", x328) * -1
    .add 337 (.ein [(415, [0, 1, 2])] [0, 1, 2]) (-1) 1,
    -- 2999: del x328
    .del 415,
    -- 3000: x150 += einsum("ij->ij", f.bb.oo)
    .add 334 (.ein [(62, [0, 1])] [0, 1]) 1 1,
    -- 3001: x151 = np.zeros((nocc[1], nvir[1]), dtype=types[float])
    .zeros 416 [4, 5],
    -- 3002: x151 += einsum("ia,ij->ja", t1.bb, x150)
    .add 416 (.ein [(12, [0, 1]), (334, [0, 2])] [2, 1]) 1 1,
    -- 3003: x159 += einsum("ia->ia", x151) * -1
    .add 211 (.ein [(416, [0, 1])] [0, 1]) (-1) 1,
    -- 3004: del x151
    .del 416,
    -- 3005: x546 = np.zeros((nocc[0], nocc[1], nvir[0], nvir[1]), dtype=types[float])
    .zeros 417 [0, 4, 1, 5],
    -- 3006: x546 += einsum("ij,abkj->kiab", x150, l2.abab)
    .add 417 (.ein [(334, [0, 1]), (8, [2, 3, 4, 1])] [4, 0, 2, 3]) 1 1,
    -- 3007: l2new_baba += einsum("ijab->baji", x546) * -1
    .add 91 (.ein [(417, [0, 1, 2, 3])] [3, 2, 1, 0]) (-1) 1,
    -- 3008: l2new_abab += einsum("ijab->abij", x546) * -1
    .add 92 (.ein [(417, [0, 1, 2, 3])] [2, 3, 0, 1]) (-1) 1,
    -- 3009: del x546
    .del 417,
    -- 3010: x571 += einsum("ij,wia->wja", x150, u11.bb)
    .add 286 (.ein [(334, [0, 1]), (50, [2, 0, 3])] [2, 1, 3]) 1 1,
    -- 3011: l1new_bb += einsum("ai,ji->aj", l1.bb, x150) * -1
    .add 85 (.ein [(44, [0, 1]), (334, [2, 1])] [0, 2]) (-1) 1,
    -- 3012: lu12new_bb += einsum("ij,wxaj->xwai", x150, lu12.bb) * -1
    .add 245 (.ein [(334, [0, 1]), (36, [2, 3, 4, 1])] [3, 2, 4, 0]) (-1) 1,
    -- 3013: del x150
    .del 334,
    -- 3014: x152 = np.zeros((nvir[1], nvir[1]), dtype=types[float])
    .zeros 418 [5, 5],
    -- 3015: x152 += einsum("w,wab->ab", s1, g.bb.bvv)
    .add 418 (.ein [(18, [0]), (7, [0, 1, 2])] [1, 2]) 1 1,
    -- 3016: x156 = np.zeros((nvir[1], nvir[1]), dtype=types[float])
    .zeros 419 [5, 5],
    -- 3017: x156 += einsum("ab->ab", x152)
    .add 419 (.ein [(418, [0, 1])] [0, 1]) 1 1,
    -- 3018: x442 = np.zeros((nvir[1], nvir[1]), dtype=types[float])
    .zeros 420 [5, 5],
    -- 3019: x442 += einsum("ab->ab", x152)
    .add 420 (.ein [(418, [0, 1])] [0, 1]) 1 1,
    -- 3020: x540 += einsum("ab->ab", x152)
    .add 412 (.ein [(418, [0, 1])] [0, 1]) 1 1,
    -- 3021: del x152
    .del 418,
    -- 3022: x153 = np.zeros((nvir[1], nvir[1]), dtype=types[float])
    .zeros 421 [5, 5],
    -- 3023: x153 += einsum("ia,iabc->bc", t1.aa, v.aabb.ovvv)
    .add 421 (.ein [(13, [0, 1]), (17, [0, 1, 2, 3])] [2, 3]) 1 1,
    -- 3024: x156 += einsum("ab->ab", x153)
    .add 419 (.ein [(421, [0, 1])] [0, 1]) 1 1,
    -- 3025: x445 = np.zeros((nvir[1], nvir[1]), dtype=types[float])
    .zeros 422 [5, 5],
    -- 3026: x445 += einsum("ab->ab", x153)
    .add 422 (.ein [(421, [0, 1])] [0, 1]) 1 1,
    -- 3027: x540 += einsum("ab->ab", x153)
    .add 412 (.ein [(421, [0, 1])] [0, 1]) 1 1,
    -- 3028: del x153
    .del 421,
    -- 3029: x154 = np.zeros((nocc[1], nvir[1], nvir[1], nvir[1]), dtype=types[float])
    .zeros 423 [4, 5, 5, 5],
    -- 3030: x154 += einsum("iabc->ibac", v.bbbb.ovvv) * -1
    .add 423 (.ein [(43, [0, 1, 2, 3])] [0, 2, 1, 3]) (-1) 1,
    -- 3031: x154 += einsum("iabc->ibca", v.bbbb.ovvv)
    .add 423 (.ein [(43, [0, 1, 2, 3])] [0, 2, 3, 1]) 1 1,
    -- 3032: x155 = np.zeros((nvir[1], nvir[1]), dtype=types[float])
    .zeros 424 [5, 5],
    -- 3033: x155 += einsum("ia,ibac->bc", t1.bb, x154)
    .add 424 (.ein [(12, [0, 1]), (423, [0, 2, 1, 3])] [2, 3]) 1 1,
    -- 3034: x156 += einsum("ab->ab", x155) * -1
    .add 419 (.ein [(424, [0, 1])] [0, 1]) (-1) 1,
    -- 3035: x540 += einsum("ab->ab", x155) * -1
    .add 412 (.ein [(424, [0, 1])] [0, 1]) (-1) 1,
    -- 3036: del x155
    .del 424,
    -- 3037: x568 = np.zeros((nbos, nvir[1], nvir[1]), dtype=types[float])
    .zeros 425 [2, 5, 5],
    -- 3038: x568 += einsum("wia,ibac->wbc", u11.bb, x154) * -1
    .add 425 (.ein [(50, [0, 1, 2]), (423, [1, 3, 2, 4])] [0, 3, 4]) (-1) 1,
    -- 3039: x156 += einsum("ab->ab", f.bb.vv)
    .add 419 (.ein [(63, [0, 1])] [0, 1]) 1 1,
    -- 3040: x157 = np.zeros((nocc[1], nvir[1]), dtype=types[float])
    .zeros 426 [4, 5],
    -- 3041: x157 += einsum("ia,ba->ib", t1.bb, x156)
    .add 426 (.ein [(12, [0, 1]), (419, [2, 1])] [0, 2]) 1 1,
    -- 3042: x159 += einsum("ia->ia", x157)
    .add 211 (.ein [(426, [0, 1])] [0, 1]) 1 1,
    -- 3043: del x157
    .del 426,
    -- 3044: l1new_bb += einsum("ai,ab->bi", l1.bb, x156)
    .add 85 (.ein [(44, [0, 1]), (419, [0, 2])] [2, 1]) 1 1,
    -- 3045: del x156
    .del 419,
    -- 3046: x159 += einsum("ai->ia", f.bb.vo)
    .add 211 (.ein [(64, [0, 1])] [1, 0]) 1 1,
    -- 3047: l1new_aa += einsum("ia,baji->bj", x159, l2.abab)
    .add 84 (.ein [(211, [0, 1]), (8, [2, 1, 3, 0])] [2, 3]) 1 1,
    -- 3048: ls1new += einsum("ia,wai->w", x159, lu11.bb)
    .add 373 (.ein [(211, [0, 1]), (65, [2, 1, 0])] [2]) 1 1,
    -- 3049: ls2new += einsum("ia,wxai->xw", x159, lu12.bb)
    .add 374 (.ein [(211, [0, 1]), (36, [2, 3, 1, 0])] [3, 2]) 1 1,
    -- 3050: x160 = np.zeros((nocc[0], nvir[0]), dtype=types[float])
    .zeros 427 [0, 1],
    -- 3051: x160 += einsum("w,wia->ia", ls1, u11.aa)
    .add 427 (.ein [(37, [0]), (24, [0, 1, 2])] [1, 2]) 1 1,
    -- 3052: x178 += einsum("ia->ia", x160) * -1
    .add 151 (.ein [(427, [0, 1])] [0, 1]) (-1) 1,
    -- 3053: del x160
    .del 427,
    -- 3054: x161 = np.zeros((nocc[0], nvir[0]), dtype=types[float])
    .zeros 428 [0, 1],
    -- 3055: x161 += einsum("wx,wxia->ia", ls2, u12.aa)
    .add 428 (.ein [(38, [0, 1]), (25, [0, 1, 2, 3])] [2, 3]) 1 1,
    -- 3056: x178 += einsum("ia->ia", x161) * -0.5
    .add 151 (.ein [(428, [0, 1])] [0, 1]) (-1) 2,
    -- 3057: del x161
    .del 428,
    -- 3058: x162 = np.zeros((nocc[0], nvir[0]), dtype=types[float])
    .zeros 429 [0, 1],
    -- 3059: x162 += einsum("ai,jiba->jb", l1.bb, t2.abab)
    .add 429 (.ein [(44, [0, 1]), (9, [2, 1, 3, 0])] [2, 3]) 1 1,
    -- 3060: x178 += einsum("ia->ia", x162) * -1
    .add 151 (.ein [(429, [0, 1])] [0, 1]) (-1) 1,
    -- 3061: del x162
    .del 429,
    -- 3062: x167 = np.zeros((nbos, nocc[0], nocc[0]), dtype=types[float])
    .zeros 430 [2, 0, 0],
    -- 3063: x167 += einsum("ia,waj->wji", t1.aa, lu11.aa)
    .add 430 (.ein [(13, [0, 1]), (51, [2, 1, 3])] [2, 3, 0]) 1 1,
    -- 3064: x169 = np.zeros((nbos, nocc[0], nocc[0]), dtype=types[float])
    .zeros 431 [2, 0, 0],
    -- 3065: x169 += einsum("wij->wij", x167)
    .add 431 (.ein [(430, [0, 1, 2])] [0, 1, 2]) 1 1,
    -- 3066: x242 = np.zeros((nbos, nocc[0], nocc[0]), dtype=types[float])
    .zeros 432 [2, 0, 0],
    -- 3067: x242 += einsum("wij->wij", x167)
    .add 432 (.ein [(430, [0, 1, 2])] [0, 1, 2]) 1 1,
    -- 3068: x168 = np.zeros((nbos, nocc[0], nocc[0]), dtype=types[float])
    .zeros 433 [2, 0, 0],
    -- 3069: x168 += einsum("wia,wxaj->xji", u11.aa, lu12.aa)
    .add 433 (.ein [(24, [0, 1, 2]), (33, [0, 3, 2, 4])] [3, 4, 1]) 1 1,
    -- 3070: x169 += einsum("wij->wij", x168)
    .add 431 (.ein [(433, [0, 1, 2])] [0, 1, 2]) 1 1,
    -- 3071: x170 = np.zeros((nocc[0], nvir[0]), dtype=types[float])
    .zeros 434 [0, 1],
    -- 3072: x170 += einsum("wia,wij->ja", u11.aa, x169)
    .add 434 (.ein [(24, [0, 1, 2]), (431, [0, 1, 3])] [3, 2]) 1 1,
    -- 3073: x178 += einsum("ia->ia", x170)
    .add 151 (.ein [(434, [0, 1])] [0, 1]) 1 1,
    -- 3074: del x170
    .del 434,
    -- 3075: x247 = np.zeros((nbos, nocc[0], nocc[0]), dtype=types[float])
    .zeros 435 [2, 0, 0],
    -- 3076: x247 += einsum("wx,wij->xij", s2, x169)
    .add 435 (.ein [(49, [0, 1]), (431, [0, 2, 3])] [1, 2, 3]) 1 1,
    -- 3077: del x169
    .del 431,
    -- 3078: x242 += einsum("wij->wij", x168)
    .add 432 (.ein [(433, [0, 1, 2])] [0, 1, 2]) 1 1,
    -- 3079: x610 = np.zeros((nbos, nbos, nocc[0], nvir[0]), dtype=types[float])
    .zeros 436 [2, 2, 0, 1],
    -- 3080: x610 += einsum("wia,xji->wxja", g.aa.bov, x242)
    .add 436 (.ein [(2, [0, 1, 2]), (432, [3, 4, 1])] [0, 3, 4, 2]) 1 1,
    -- 3081: x612 = np.zeros((nbos, nbos, nocc[0], nvir[0]), dtype=types[float])
    .zeros 437 [2, 2, 0, 1],
    -- 3082: x612 += einsum("wxia->wxia", x610)
    .add 437 (.ein [(436, [0, 1, 2, 3])] [0, 1, 2, 3]) 1 1,
    -- 3083: del x610
    .del 436,
    -- 3084: x171 = np.zeros((nocc[0], nocc[0]), dtype=types[float])
    .zeros 438 [0, 0],
    -- 3085: x171 += einsum("ai,ja->ij", l1.aa, t1.aa)
    .add 438 (.ein [(28, [0, 1]), (13, [2, 0])] [1, 2]) 1 1,
    -- 3086: x176 += einsum("ij->ij", x171)
    .add 153 (.ein [(438, [0, 1])] [0, 1]) 1 1,
    -- 3087: x215 += einsum("ij->ij", x171) * 2
    .add 160 (.ein [(438, [0, 1])] [0, 1]) 2 1,
    -- 3088: x383 = np.zeros((nocc[0], nocc[0]), dtype=types[float])
    .zeros 439 [0, 0],
    -- 3089: x383 += einsum("ij->ij", x171)
    .add 439 (.ein [(438, [0, 1])] [0, 1]) 1 1,
    -- 3090: del x171
    .del 438,
    -- 3091: x172 = np.zeros((nocc[0], nocc[0]), dtype=types[float])
    .zeros 440 [0, 0],
    -- 3092: x172 += einsum("wai,wja->ij", lu11.aa, u11.aa)
    .add 440 (.ein [(51, [0, 1, 2]), (24, [0, 3, 1])] [2, 3]) 1 1,
    -- 3093: x176 += einsum("ij->ij", x172)
    .add 153 (.ein [(440, [0, 1])] [0, 1]) 1 1,
    -- 3094: x215 += einsum("ij->ij", x172) * 2
    .add 160 (.ein [(440, [0, 1])] [0, 1]) 2 1,
    -- 3095: x383 += einsum("ij->ij", x172)
    .add 439 (.ein [(440, [0, 1])] [0, 1]) 1 1,
    -- 3096: del x172
    .del 440,
    -- 3097: x384 = np.zeros((nocc[0], nocc[0], nvir[0], nvir[0]), dtype=types[float])
    .zeros 441 [0, 0, 1, 1],
    -- 3098: x384 += einsum("ij,jakb->kiab", x383, v.aaaa.ovov)
    .add 441 (.ein [(439, [0, 1]), (23, [1, 2, 3, 4])] [3, 0, 2, 4]) 1 1,
    -- 3099: del x383
    .del 439,
    -- 3100: x390 += einsum("ijab->jiba", x384)
    .add 98 (.ein [(441, [0, 1, 2, 3])] [1, 0, 3, 2]) 1 1,
    -- 3101: del x384
    .del 441,
    -- 3102: x173 = np.zeros((nocc[0], nocc[0]), dtype=types[float])
    .zeros 442 [0, 0],
    -- 3103: x173 += einsum("wxai,wxja->ij", lu12.aa, u12.aa)
    .add 442 (.ein [(33, [0, 1, 2, 3]), (25, [0, 1, 4, 2])] [3, 4]) 1 1,
    -- 3104: x176 += einsum("ij->ij", x173) * 0.5
    .add 153 (.ein [(442, [0, 1])] [0, 1]) 1 2,
    -- 3105: x215 += einsum("ij->ij", x173)
    .add 160 (.ein [(442, [0, 1])] [0, 1]) 1 1,
    -- 3106: x411 += einsum("ij->ij", x173) * 0.5
    .add 154 (.ein [(442, [0, 1])] [0, 1]) 1 2,
    -- 3107: del x173
    .del 442,
    -- 3108: x174 = np.zeros((nocc[0], nocc[0]), dtype=types[float])
    .zeros 443 [0, 0],
    -- 3109: x174 += einsum("abij,kjab->ik", l2.abab, t2.abab)
    .add 443 (.ein [(8, [0, 1, 2, 3]), (9, [4, 3, 0, 1])] [2, 4]) 1 1,
    -- 3110: x176 += einsum("ij->ij", x174)
    .add 153 (.ein [(443, [0, 1])] [0, 1]) 1 1,
    -- 3111: x177 = np.zeros((nocc[0], nvir[0]), dtype=types[float])
    .zeros 444 [0, 1],
    -- 3112: x177 += einsum("ia,ij->ja", t1.aa, x176)
    .add 444 (.ein [(13, [0, 1]), (153, [0, 2])] [2, 1]) 1 1,
    -- 3113: x178 += einsum("ia->ia", x177)
    .add 151 (.ein [(444, [0, 1])] [0, 1]) 1 1,
    -- 3114: del x177
    .del 444,
    -- 3115: x549 = np.zeros((nocc[0], nocc[1], nvir[0], nvir[1]), dtype=types[float])
    .zeros 445 [0, 4, 1, 5],
    -- 3116: x549 += einsum("ij,jakb->ikab", x176, v.aabb.ovov)
    .add 445 (.ein [(153, [0, 1]), (14, [1, 2, 3, 4])] [0, 3, 2, 4]) 1 1,
    -- 3117: l2new_baba += einsum("ijab->baji", x549) * -1
    .add 91 (.ein [(445, [0, 1, 2, 3])] [3, 2, 1, 0]) (-1) 1,
    -- 3118: l2new_abab += einsum("ijab->abij", x549) * -1
    .add 92 (.ein [(445, [0, 1, 2, 3])] [2, 3, 0, 1]) (-1) 1,
    -- 3119: del x549
    .del 445,
    -- 3120: l1new_bb += einsum("ij,jika->ak", x176, v.aabb.ooov) * -1
    .add 85 (.ein [(153, [0, 1]), (11, [1, 0, 2, 3])] [3, 2]) (-1) 1,
    -- 3121: ls1new += einsum("ij,wji->w", x176, g.aa.boo) * -1
    .add 373 (.ein [(153, [0, 1]), (0, [2, 1, 0])] [2]) (-1) 1,
    -- 3122: del x176
    .del 153,
    -- 3123: x215 += einsum("ij->ij", x174) * 2
    .add 160 (.ein [(443, [0, 1])] [0, 1]) 2 1,
    -- 3124: l1new_aa += einsum("ij,kjia->ak", x215, x106) * -0.5
    .add 84 (.ein [(160, [0, 1]), (352, [2, 1, 0, 3])] [3, 2]) (-1) 2,
    -- 3125: del x106
    .del 352,
    -- 3126: l1new_aa += einsum("ij,ja->ai", x215, x41) * -0.5
    .add 84 (.ein [(160, [0, 1]), (103, [1, 2])] [2, 0]) (-1) 2,
    -- 3127: del x41
    .del 103,
    -- 3128: del x215
    .del 160,
    -- 3129: x411 += einsum("ij->ij", x174)
    .add 154 (.ein [(443, [0, 1])] [0, 1]) 1 1,
    -- 3130: del x174
    .del 443,
    -- 3131: x412 = np.zeros((nocc[0], nocc[0], nvir[0], nvir[0]), dtype=types[float])
    .zeros 446 [0, 0, 1, 1],
    -- 3132: x412 += einsum("ij,jakb->kiab", x411, v.aaaa.ovov)
    .add 446 (.ein [(154, [0, 1]), (23, [1, 2, 3, 4])] [3, 0, 2, 4]) 1 1,
    -- 3133: del x411
    .del 154,
    -- 3134: x414 += einsum("ijab->jiba", x412)
    .add 259 (.ein [(446, [0, 1, 2, 3])] [1, 0, 3, 2]) 1 1,
    -- 3135: del x412
    .del 446,
    -- 3136: x178 += einsum("ia->ia", t1.aa) * -1
    .add 151 (.ein [(13, [0, 1])] [0, 1]) (-1) 1,
    -- 3137: l1new_bb += einsum("ia,iajb->bj", x178, v.aabb.ovov) * -1
    .add 85 (.ein [(151, [0, 1]), (14, [0, 1, 2, 3])] [3, 2]) (-1) 1,
    -- 3138: ls1new += einsum("ia,wia->w", x178, g.aa.bov) * -1
    .add 373 (.ein [(151, [0, 1]), (2, [2, 0, 1])] [2]) (-1) 1,
    -- 3139: x179 = np.zeros((nocc[0], nocc[0], nvir[0], nvir[0]), dtype=types[float])
    .zeros 447 [0, 0, 1, 1],
    -- 3140: x179 += einsum("iajb->jiab", v.aaaa.ovov) * -1
    .add 447 (.ein [(23, [0, 1, 2, 3])] [2, 0, 1, 3]) (-1) 1,
    -- 3141: x179 += einsum("iajb->jiba", v.aaaa.ovov)
    .add 447 (.ein [(23, [0, 1, 2, 3])] [2, 0, 3, 1]) 1 1,
    -- 3142: x397 = np.zeros((nocc[0], nocc[0], nvir[0], nvir[0]), dtype=types[float])
    .zeros 448 [0, 0, 1, 1],
    -- 3143: x397 += einsum("ijab,kica->kjcb", x179, x33)
    .add 448 (.ein [(447, [0, 1, 2, 3]), (183, [4, 0, 5, 2])] [4, 1, 5, 3]) 1 1,
    -- 3144: del x33
    .del 183,
    -- 3145: x414 += einsum("ijab->ijab", x397)
    .add 259 (.ein [(448, [0, 1, 2, 3])] [0, 1, 2, 3]) 1 1,
    -- 3146: del x397
    .del 448,
    -- 3147: l1new_aa += einsum("ia,ijab->bj", x178, x179) * -1
    .add 84 (.ein [(151, [0, 1]), (447, [0, 2, 1, 3])] [3, 2]) (-1) 1,
    -- 3148: del x178
    .del 151,
    -- 3149: del x179
    .del 447,
    -- 3150: x180 = np.zeros((nvir[0], nvir[0]), dtype=types[float])
    .zeros 449 [1, 1],
    -- 3151: x180 += einsum("ai,ib->ab", l1.aa, t1.aa)
    .add 449 (.ein [(28, [0, 1]), (13, [1, 2])] [0, 2]) 1 1,
    -- 3152: x185 += einsum("ab->ab", x180)
    .add 156 (.ein [(449, [0, 1])] [0, 1]) 1 1,
    -- 3153: x325 += einsum("ab->ab", x180) * 2
    .add 163 (.ein [(449, [0, 1])] [0, 1]) 2 1,
    -- 3154: del x180
    .del 449,
    -- 3155: x181 = np.zeros((nvir[0], nvir[0]), dtype=types[float])
    .zeros 450 [1, 1],
    -- 3156: x181 += einsum("wai,wib->ab", lu11.aa, u11.aa)
    .add 450 (.ein [(51, [0, 1, 2]), (24, [0, 2, 3])] [1, 3]) 1 1,
    -- 3157: x185 += einsum("ab->ab", x181)
    .add 156 (.ein [(450, [0, 1])] [0, 1]) 1 1,
    -- 3158: x325 += einsum("ab->ab", x181) * 2
    .add 163 (.ein [(450, [0, 1])] [0, 1]) 2 1,
    -- 3159: x350 = np.zeros((nocc[0], nocc[0], nvir[0], nvir[0]), dtype=types[float])
    .zeros 451 [0, 0, 1, 1],
    -- 3160: x350 += einsum("ab,icjb->ijac", x181, v.aaaa.ovov)
    .add 451 (.ein [(450, [0, 1]), (23, [2, 3, 4, 1])] [2, 4, 0, 3]) 1 1,
    -- 3161: x390 += einsum("ijab->ijab", x350)
    .add 98 (.ein [(451, [0, 1, 2, 3])] [0, 1, 2, 3]) 1 1,
    -- 3162: del x350
    .del 451,
    -- 3163: x548 += einsum("ab->ab", x181)
    .add 158 (.ein [(450, [0, 1])] [0, 1]) 1 1,
    -- 3164: x567 += einsum("ab->ab", x181) * 2
    .add 164 (.ein [(450, [0, 1])] [0, 1]) 2 1,
    -- 3165: del x181
    .del 450,
    -- 3166: x182 = np.zeros((nvir[0], nvir[0]), dtype=types[float])
    .zeros 452 [1, 1],
    -- 3167: x182 += einsum("wxai,wxib->ab", lu12.aa, u12.aa)
    .add 452 (.ein [(33, [0, 1, 2, 3]), (25, [0, 1, 3, 4])] [2, 4]) 1 1,
    -- 3168: x185 += einsum("ab->ab", x182) * 0.5
    .add 156 (.ein [(452, [0, 1])] [0, 1]) 1 2,
    -- 3169: x325 += einsum("ab->ab", x182)
    .add 163 (.ein [(452, [0, 1])] [0, 1]) 1 1,
    -- 3170: x402 += einsum("ab->ab", x182) * 0.5
    .add 157 (.ein [(452, [0, 1])] [0, 1]) 1 2,
    -- 3171: x548 += einsum("ab->ab", x182) * 0.5
    .add 158 (.ein [(452, [0, 1])] [0, 1]) 1 2,
    -- 3172: x567 += einsum("ab->ab", x182)
    .add 164 (.ein [(452, [0, 1])] [0, 1]) 1 1,
    -- 3173: del x182
    .del 452,
    -- 3174: x183 = np.zeros((nvir[0], nvir[0]), dtype=types[float])
    .zeros 453 [1, 1],
    -- 3175: x183 += einsum("abij,ijcb->ac", l2.abab, t2.abab)
    .add 453 (.ein [(8, [0, 1, 2, 3]), (9, [2, 3, 4, 1])] [0, 4]) 1 1,
    -- 3176: x185 += einsum("ab->ab", x183)
    .add 156 (.ein [(453, [0, 1])] [0, 1]) 1 1,
    -- 3177: ls1new += einsum("ab,wab->w", x185, g.aa.bvv)
    .add 373 (.ein [(156, [0, 1]), (3, [2, 0, 1])] [2]) 1 1,
    -- 3178: x325 += einsum("ab->ab", x183) * 2
    .add 163 (.ein [(453, [0, 1])] [0, 1]) 2 1,
    -- 3179: l1new_bb += einsum("ab,icab->ci", x325, v.bbaa.ovvv) * 0.5
    .add 85 (.ein [(163, [0, 1]), (15, [2, 3, 0, 1])] [3, 2]) 1 2,
    -- 3180: del x325
    .del 163,
    -- 3181: x402 += einsum("ab->ab", x183)
    .add 157 (.ein [(453, [0, 1])] [0, 1]) 1 1,
    -- 3182: x403 = np.zeros((nocc[0], nocc[0], nvir[0], nvir[0]), dtype=types[float])
    .zeros 454 [0, 0, 1, 1],
    -- 3183: x403 += einsum("ab,ibjc->ijca", x402, v.aaaa.ovov)
    .add 454 (.ein [(157, [0, 1]), (23, [2, 1, 3, 4])] [2, 3, 4, 0]) 1 1,
    -- 3184: del x402
    .del 157,
    -- 3185: x414 += einsum("ijab->jiba", x403)
    .add 259 (.ein [(454, [0, 1, 2, 3])] [1, 0, 3, 2]) 1 1,
    -- 3186: del x403
    .del 454,
    -- 3187: x548 += einsum("ab->ab", x183)
    .add 158 (.ein [(453, [0, 1])] [0, 1]) 1 1,
    -- 3188: l2new_baba += einsum("ab,ibjc->caji", x548, v.aabb.ovov) * -1
    .add 91 (.ein [(158, [0, 1]), (14, [2, 1, 3, 4])] [4, 0, 3, 2]) (-1) 1,
    -- 3189: del x548
    .del 158,
    -- 3190: x567 += einsum("ab->ab", x183) * 2
    .add 164 (.ein [(453, [0, 1])] [0, 1]) 2 1,
    -- 3191: del x183
    .del 453,
    -- 3192: l2new_abab += einsum("ab,ibjc->acij", x567, v.aabb.ovov) * -0.5
    .add 92 (.ein [(164, [0, 1]), (14, [2, 1, 3, 4])] [0, 4, 2, 3]) (-1) 2,
    -- 3193: del x567
    .del 164,
    -- 3194: x186 = np.zeros((nocc[0], nvir[0], nvir[0], nvir[0]), dtype=types[float])
    .zeros 455 [0, 1, 1, 1],
    -- 3195: x186 += einsum("iabc->ibac", v.aaaa.ovvv)
    .add 455 (.ein [(22, [0, 1, 2, 3])] [0, 2, 1, 3]) 1 1,
    -- 3196: x186 -= einsum("iabc->ibca", v.aaaa.ovvv)
    .add 455 (.ein [(22, [0, 1, 2, 3])] [0, 2, 3, 1]) (-1) 1,
    -- 3197: x616 = np.zeros((nocc[0], nocc[0], nvir[0], nvir[0]), dtype=types[float])
    .zeros 456 [0, 0, 1, 1],
    -- 3198: x616 -= einsum("ia,jbac->jibc", t1.aa, x186)
    .add 456 (.ein [(13, [0, 1]), (455, [2, 3, 1, 4])] [2, 0, 3, 4]) (-1) 1,
    -- 3199: l1new_aa += einsum("ab,iabc->ci", x185, x186) * -1
    .add 84 (.ein [(156, [0, 1]), (455, [2, 0, 1, 3])] [3, 2]) (-1) 1,
    -- 3200: del x185
    .del 156,
    -- 3201: del x186
    .del 455,
    -- 3202: x187 = np.zeros((nocc[1], nvir[1]), dtype=types[float])
    .zeros 457 [4, 5],
    -- 3203: x187 += einsum("w,wia->ia", ls1, u11.bb)
    .add 457 (.ein [(37, [0]), (50, [0, 1, 2])] [1, 2]) 1 1,
    -- 3204: x207 += einsum("ia->ia", x187) * -1
    .add 95 (.ein [(457, [0, 1])] [0, 1]) (-1) 1,
    -- 3205: del x187
    .del 457,
    -- 3206: x188 = np.zeros((nocc[1], nvir[1]), dtype=types[float])
    .zeros 458 [4, 5],
    -- 3207: x188 += einsum("wx,wxia->ia", ls2, u12.bb)
    .add 458 (.ein [(38, [0, 1]), (29, [0, 1, 2, 3])] [2, 3]) 1 1,
    -- 3208: x207 += einsum("ia->ia", x188) * -0.5
    .add 95 (.ein [(458, [0, 1])] [0, 1]) (-1) 2,
    -- 3209: del x188
    .del 458,
    -- 3210: x189 = np.zeros((nocc[1], nvir[1]), dtype=types[float])
    .zeros 459 [4, 5],
    -- 3211: x189 += einsum("ai,ijab->jb", l1.aa, t2.abab)
    .add 459 (.ein [(28, [0, 1]), (9, [1, 2, 0, 3])] [2, 3]) 1 1,
    -- 3212: x207 += einsum("ia->ia", x189) * -1
    .add 95 (.ein [(459, [0, 1])] [0, 1]) (-1) 1,
    -- 3213: del x189
    .del 459,
    -- 3214: x190 = np.zeros((nbos, nbos, nocc[1], nocc[1]), dtype=types[float])
    .zeros 460 [2, 2, 4, 4],
    -- 3215: x190 += einsum("ia,wxaj->wxji", t1.bb, lu12.bb)
    .add 460 (.ein [(12, [0, 1]), (36, [2, 3, 1, 4])] [2, 3, 4, 0]) 1 1,
    -- 3216: x191 = np.zeros((nocc[1], nvir[1]), dtype=types[float])
    .zeros 461 [4, 5],
    -- 3217: x191 += einsum("wxia,wxij->ja", u12.bb, x190)
    .add 461 (.ein [(29, [0, 1, 2, 3]), (460, [0, 1, 2, 4])] [4, 3]) 1 1,
    -- 3218: x207 += einsum("ia->ia", x191) * 0.5
    .add 95 (.ein [(461, [0, 1])] [0, 1]) 1 2,
    -- 3219: del x191
    .del 461,
    -- 3220: x299 += einsum("wxia,wxjk->jkia", u12.bb, x190) * 0.5
    .add 96 (.ein [(29, [0, 1, 2, 3]), (460, [0, 1, 4, 5])] [4, 5, 2, 3]) 1 2,
    -- 3221: x301 += einsum("wxia,wxjk->ijka", u12.aa, x190) * -0.5
    .add 89 (.ein [(25, [0, 1, 2, 3]), (460, [0, 1, 4, 5])] [2, 4, 5, 3]) (-1) 2,
    -- 3222: x587 = np.zeros((nbos, nocc[1], nvir[1]), dtype=types[float])
    .zeros 462 [2, 4, 5],
    -- 3223: x587 += einsum("wia,xwij->xja", u11.bb, x190)
    .add 462 (.ein [(50, [0, 1, 2]), (460, [3, 0, 1, 4])] [3, 4, 2]) 1 1,
    -- 3224: x588 = np.zeros((nbos, nbos), dtype=types[float])
    .zeros 463 [2, 2],
    -- 3225: x588 += einsum("wia,xia->wx", g.bb.bov, x587)
    .add 463 (.ein [(6, [0, 1, 2]), (462, [3, 1, 2])] [0, 3]) 1 1,
    -- 3226: del x587
    .del 462,
    -- 3227: x605 -= einsum("wx->wx", x588)
    .add 244 (.ein [(463, [0, 1])] [0, 1]) (-1) 1,
    -- 3228: del x588
    .del 463,
    -- 3229: lu12new_aa -= einsum("iajk,wxkj->xwai", v.aabb.ovoo, x190)
    .add 227 (.ein [(10, [0, 1, 2, 3]), (460, [4, 5, 3, 2])] [5, 4, 1, 0]) (-1) 1,
    -- 3230: lu12new_aa -= einsum("wxij,kija->xwak", x190, x39)
    .add 227 (.ein [(460, [0, 1, 2, 3]), (205, [4, 2, 3, 5])] [1, 0, 5, 4]) (-1) 1,
    -- 3231: del x39
    .del 205,
    -- 3232: lu12new_bb += einsum("wxij,ijka->xwak", x190, x565) * -1
    .add 245 (.ein [(460, [0, 1, 2, 3]), (389, [2, 3, 4, 5])] [1, 0, 5, 4]) (-1) 1,
    -- 3233: del x565
    .del 389,
    -- 3234: lu12new_bb += einsum("ia,wxji->xwaj", x95, x190) * -1
    .add 245 (.ein [(307, [0, 1]), (460, [2, 3, 4, 0])] [3, 2, 1, 4]) (-1) 1,
    -- 3235: x193 = np.zeros((nocc[1], nocc[1], nocc[1], nvir[1]), dtype=types[float])
    .zeros 464 [4, 4, 4, 5],
    -- 3236: x193 += einsum("ia,abjk->kjib", t1.bb, l2.bbbb)
    .add 464 (.ein [(12, [0, 1]), (35, [1, 2, 3, 4])] [4, 3, 0, 2]) 1 1,
    -- 3237: x194 = np.zeros((nocc[1], nvir[1]), dtype=types[float])
    .zeros 465 [4, 5],
    -- 3238: x194 += einsum("ijka,ijab->kb", x193, x52)
    .add 465 (.ein [(464, [0, 1, 2, 3]), (236, [0, 1, 3, 4])] [2, 4]) 1 1,
    -- 3239: x207 += einsum("ia->ia", x194) * -1
    .add 95 (.ein [(465, [0, 1])] [0, 1]) (-1) 1,
    -- 3240: del x194
    .del 465,
    -- 3241: x298 = np.zeros((nocc[1], nocc[1], nocc[1], nvir[1]), dtype=types[float])
    .zeros 466 [4, 4, 4, 5],
    -- 3242: x298 += einsum("ijka->ijka", x193) * -1
    .add 466 (.ein [(464, [0, 1, 2, 3])] [0, 1, 2, 3]) (-1) 1,
    -- 3243: x298 += einsum("ijka->jika", x193)
    .add 466 (.ein [(464, [0, 1, 2, 3])] [1, 0, 2, 3]) 1 1,
    -- 3244: x299 += einsum("ijka,ilba->jklb", x298, x38)
    .add 96 (.ein [(466, [0, 1, 2, 3]), (190, [0, 4, 5, 3])] [1, 2, 4, 5]) 1 1,
    -- 3245: x301 += einsum("ijab,kjlb->ikla", t2.abab, x298) * -1
    .add 89 (.ein [(9, [0, 1, 2, 3]), (466, [4, 1, 5, 3])] [0, 4, 5, 2]) (-1) 1,
    -- 3246: l1new_bb += einsum("ijab,kjia->bk", x136, x298) * -1
    .add 85 (.ein [(391, [0, 1, 2, 3]), (466, [4, 1, 0, 2])] [3, 4]) (-1) 1,
    -- 3247: del x136
    .del 391,
    -- 3248: del x298
    .del 466,
    -- 3249: x302 = np.zeros((nocc[1], nocc[1], nocc[1], nvir[1]), dtype=types[float])
    .zeros 467 [4, 4, 4, 5],
    -- 3250: x302 += einsum("ijka->ijka", x193)
    .add 467 (.ein [(464, [0, 1, 2, 3])] [0, 1, 2, 3]) 1 1,
    -- 3251: x302 += einsum("ijka->jika", x193) * -1
    .add 467 (.ein [(464, [0, 1, 2, 3])] [1, 0, 2, 3]) (-1) 1,
    -- 3252: x303 = np.zeros((nocc[1], nocc[1], nvir[1], nvir[1]), dtype=types[float])
    .zeros 468 [4, 4, 5, 5],
    -- 3253: x303 += einsum("ia,jikb->jkba", t1.bb, x302) * -1
    .add 468 (.ein [(12, [0, 1]), (467, [2, 0, 3, 4])] [2, 3, 4, 1]) (-1) 1,
    -- 3254: x471 = np.zeros((nocc[1], nocc[1], nvir[1], nvir[1]), dtype=types[float])
    .zeros 469 [4, 4, 5, 5],
    -- 3255: x471 += einsum("ijka,jklb->ilab", x302, x470)
    .add 469 (.ein [(467, [0, 1, 2, 3]), (388, [1, 2, 4, 5])] [0, 4, 3, 5]) 1 1,
    -- 3256: del x302
    .del 467,
    -- 3257: del x470
    .del 388,
    -- 3258: x491 += einsum("ijab->ijab", x471)
    .add 406 (.ein [(469, [0, 1, 2, 3])] [0, 1, 2, 3]) 1 1,
    -- 3259: del x471
    .del 469,
    -- 3260: x309 = np.zeros((nocc[1], nocc[1], nocc[1], nocc[1]), dtype=types[float])
    .zeros 470 [4, 4, 4, 4],
    -- 3261: x309 += einsum("ia,jkla->jkil", t1.bb, x193)
    .add 470 (.ein [(12, [0, 1]), (464, [2, 3, 4, 1])] [2, 3, 0, 4]) 1 1,
    -- 3262: x310 = np.zeros((nocc[1], nocc[1], nocc[1], nocc[1]), dtype=types[float])
    .zeros 471 [4, 4, 4, 4],
    -- 3263: x310 += einsum("ijkl->ijkl", x309)
    .add 471 (.ein [(470, [0, 1, 2, 3])] [0, 1, 2, 3]) 1 1,
    -- 3264: x323 = np.zeros((nocc[1], nocc[1], nocc[1], nocc[1]), dtype=types[float])
    .zeros 472 [4, 4, 4, 4],
    -- 3265: x323 += einsum("ijkl->ijkl", x309)
    .add 472 (.ein [(470, [0, 1, 2, 3])] [0, 1, 2, 3]) 1 1,
    -- 3266: x323 += einsum("ijkl->ijlk", x309) * -1
    .add 472 (.ein [(470, [0, 1, 2, 3])] [0, 1, 3, 2]) (-1) 1,
    -- 3267: l1new_bb += einsum("ijka,ljki->al", v.bbbb.ooov, x323)
    .add 85 (.ein [(59, [0, 1, 2, 3]), (472, [4, 1, 2, 0])] [3, 4]) 1 1,
    -- 3268: del x323
    .del 472,
    -- 3269: x497 = np.zeros((nocc[1], nocc[1], nocc[1], nocc[1]), dtype=types[float])
    .zeros 473 [4, 4, 4, 4],
    -- 3270: x497 += einsum("ijkl->ijkl", x309)
    .add 473 (.ein [(470, [0, 1, 2, 3])] [0, 1, 2, 3]) 1 1,
    -- 3271: del x309
    .del 470,
    -- 3272: x428 = np.zeros((nocc[1], nocc[1], nvir[1], nvir[1]), dtype=types[float])
    .zeros 474 [4, 4, 5, 5],
    -- 3273: x428 += einsum("iabc,jkib->kjac", v.bbbb.ovvv, x193)
    .add 474 (.ein [(43, [0, 1, 2, 3]), (464, [4, 5, 0, 2])] [5, 4, 1, 3]) 1 1,
    -- 3274: x467 -= einsum("ijab->ijab", x428)
    .add 249 (.ein [(474, [0, 1, 2, 3])] [0, 1, 2, 3]) (-1) 1,
    -- 3275: del x428
    .del 474,
    -- 3276: x438 = np.zeros((nocc[1], nocc[1], nocc[1], nvir[1]), dtype=types[float])
    .zeros 475 [4, 4, 4, 5],
    -- 3277: x438 += einsum("ijka->ijka", x193)
    .add 475 (.ein [(464, [0, 1, 2, 3])] [0, 1, 2, 3]) 1 1,
    -- 3278: x438 -= einsum("ijka->jika", x193)
    .add 475 (.ein [(464, [0, 1, 2, 3])] [1, 0, 2, 3]) (-1) 1,
    -- 3279: l2new_abab += einsum("ijka,lkjb->abil", x40, x438) * -1
    .add 92 (.ein [(206, [0, 1, 2, 3]), (475, [4, 2, 1, 5])] [3, 5, 0, 4]) (-1) 1,
    -- 3280: x490 = np.zeros((nocc[1], nocc[1], nvir[1], nvir[1]), dtype=types[float])
    .zeros 476 [4, 4, 5, 5],
    -- 3281: x490 += einsum("ia,jkib->jkba", x272, x193)
    .add 476 (.ein [(312, [0, 1]), (464, [2, 3, 0, 4])] [2, 3, 4, 1]) 1 1,
    -- 3282: del x272
    .del 312,
    -- 3283: x491 += einsum("ijab->ijab", x490) * -1
    .add 406 (.ein [(476, [0, 1, 2, 3])] [0, 1, 2, 3]) (-1) 1,
    -- 3284: del x490
    .del 476,
    -- 3285: x530 = np.zeros((nocc[1], nocc[1], nocc[1], nvir[1]), dtype=types[float])
    .zeros 477 [4, 4, 4, 5],
    -- 3286: x530 -= einsum("ijka->ijka", x193)
    .add 477 (.ein [(464, [0, 1, 2, 3])] [0, 1, 2, 3]) (-1) 1,
    -- 3287: x530 += einsum("ijka->jika", x193)
    .add 477 (.ein [(464, [0, 1, 2, 3])] [1, 0, 2, 3]) 1 1,
    -- 3288: l2new_baba += einsum("ijka,lkjb->bali", x40, x530)
    .add 91 (.ein [(206, [0, 1, 2, 3]), (477, [4, 2, 1, 5])] [5, 3, 4, 0]) 1 1,
    -- 3289: del x40
    .del 206,
    -- 3290: del x530
    .del 477,
    -- 3291: x196 = np.zeros((nbos, nocc[1], nocc[1]), dtype=types[float])
    .zeros 478 [2, 4, 4],
    -- 3292: x196 += einsum("ia,waj->wji", t1.bb, lu11.bb)
    .add 478 (.ein [(12, [0, 1]), (65, [2, 1, 3])] [2, 3, 0]) 1 1,
    -- 3293: x198 = np.zeros((nbos, nocc[1], nocc[1]), dtype=types[float])
    .zeros 479 [2, 4, 4],
    -- 3294: x198 += einsum("wij->wij", x196)
    .add 479 (.ein [(478, [0, 1, 2])] [0, 1, 2]) 1 1,
    -- 3295: x343 = np.zeros((nbos, nocc[1], nocc[1]), dtype=types[float])
    .zeros 480 [2, 4, 4],
    -- 3296: x343 += einsum("wij->wij", x196)
    .add 480 (.ein [(478, [0, 1, 2])] [0, 1, 2]) 1 1,
    -- 3297: x197 = np.zeros((nbos, nocc[1], nocc[1]), dtype=types[float])
    .zeros 481 [2, 4, 4],
    -- 3298: x197 += einsum("wia,wxaj->xji", u11.bb, lu12.bb)
    .add 481 (.ein [(50, [0, 1, 2]), (36, [0, 3, 2, 4])] [3, 4, 1]) 1 1,
    -- 3299: x198 += einsum("wij->wij", x197)
    .add 479 (.ein [(481, [0, 1, 2])] [0, 1, 2]) 1 1,
    -- 3300: x199 = np.zeros((nocc[1], nvir[1]), dtype=types[float])
    .zeros 482 [4, 5],
    -- 3301: x199 += einsum("wia,wij->ja", u11.bb, x198)
    .add 482 (.ein [(50, [0, 1, 2]), (479, [0, 1, 3])] [3, 2]) 1 1,
    -- 3302: x207 += einsum("ia->ia", x199)
    .add 95 (.ein [(482, [0, 1])] [0, 1]) 1 1,
    -- 3303: del x199
    .del 482,
    -- 3304: x345 = np.zeros((nbos, nocc[1], nocc[1]), dtype=types[float])
    .zeros 483 [2, 4, 4],
    -- 3305: x345 += einsum("wx,wij->xij", s2, x198)
    .add 483 (.ein [(49, [0, 1]), (479, [0, 2, 3])] [1, 2, 3]) 1 1,
    -- 3306: del x198
    .del 479,
    -- 3307: x343 += einsum("wij->wij", x197)
    .add 480 (.ein [(481, [0, 1, 2])] [0, 1, 2]) 1 1,
    -- 3308: x628 = np.zeros((nbos, nbos, nocc[1], nvir[1]), dtype=types[float])
    .zeros 484 [2, 2, 4, 5],
    -- 3309: x628 += einsum("wia,xji->wxja", g.bb.bov, x343)
    .add 484 (.ein [(6, [0, 1, 2]), (480, [3, 4, 1])] [0, 3, 4, 2]) 1 1,
    -- 3310: x630 = np.zeros((nbos, nbos, nocc[1], nvir[1]), dtype=types[float])
    .zeros 485 [2, 2, 4, 5],
    -- 3311: x630 += einsum("wxia->wxia", x628)
    .add 485 (.ein [(484, [0, 1, 2, 3])] [0, 1, 2, 3]) 1 1,
    -- 3312: del x628
    .del 484,
    -- 3313: x582 = np.zeros((nbos, nbos), dtype=types[float])
    .zeros 486 [2, 2],
    -- 3314: x582 += einsum("wij,xji->wx", g.bb.boo, x197)
    .add 486 (.ein [(4, [0, 1, 2]), (481, [3, 2, 1])] [0, 3]) 1 1,
    -- 3315: x605 -= einsum("wx->wx", x582)
    .add 244 (.ein [(486, [0, 1])] [0, 1]) (-1) 1,
    -- 3316: del x582
    .del 486,
    -- 3317: x589 = np.zeros((nbos, nbos), dtype=types[float])
    .zeros 487 [2, 2],
    -- 3318: x589 += einsum("wij,xji->wx", x138, x197)
    .add 487 (.ein [(394, [0, 1, 2]), (481, [3, 2, 1])] [0, 3]) 1 1,
    -- 3319: del x138
    .del 394,
    -- 3320: del x197
    .del 481,
    -- 3321: x605 -= einsum("wx->wx", x589)
    .add 244 (.ein [(487, [0, 1])] [0, 1]) (-1) 1,
    -- 3322: del x589
    .del 487,
    -- 3323: x200 = np.zeros((nocc[1], nocc[1]), dtype=types[float])
    .zeros 488 [4, 4],
    -- 3324: x200 += einsum("ai,ja->ij", l1.bb, t1.bb)
    .add 488 (.ein [(44, [0, 1]), (12, [2, 0])] [1, 2]) 1 1,
    -- 3325: x205 += einsum("ij->ij", x200)
    .add 192 (.ein [(488, [0, 1])] [0, 1]) 1 1,
    -- 3326: x225 += einsum("ij->ij", x200) * 2
    .add 200 (.ein [(488, [0, 1])] [0, 1]) 2 1,
    -- 3327: x460 = np.zeros((nocc[1], nocc[1]), dtype=types[float])
    .zeros 489 [4, 4],
    -- 3328: x460 += einsum("ij->ij", x200)
    .add 489 (.ein [(488, [0, 1])] [0, 1]) 1 1,
    -- 3329: ls1new -= einsum("ij,wji->w", x200, g.bb.boo)
    .add 373 (.ein [(488, [0, 1]), (4, [2, 1, 0])] [2]) (-1) 1,
    -- 3330: del x200
    .del 488,
    -- 3331: x201 = np.zeros((nocc[1], nocc[1]), dtype=types[float])
    .zeros 490 [4, 4],
    -- 3332: x201 += einsum("wai,wja->ij", lu11.bb, u11.bb)
    .add 490 (.ein [(65, [0, 1, 2]), (50, [0, 3, 1])] [2, 3]) 1 1,
    -- 3333: x205 += einsum("ij->ij", x201)
    .add 192 (.ein [(490, [0, 1])] [0, 1]) 1 1,
    -- 3334: x225 += einsum("ij->ij", x201) * 2
    .add 200 (.ein [(490, [0, 1])] [0, 1]) 2 1,
    -- 3335: x460 += einsum("ij->ij", x201)
    .add 489 (.ein [(490, [0, 1])] [0, 1]) 1 1,
    -- 3336: x461 = np.zeros((nocc[1], nocc[1], nvir[1], nvir[1]), dtype=types[float])
    .zeros 491 [4, 4, 5, 5],
    -- 3337: x461 += einsum("ij,jakb->kiab", x460, v.bbbb.ovov)
    .add 491 (.ein [(489, [0, 1]), (53, [1, 2, 3, 4])] [3, 0, 2, 4]) 1 1,
    -- 3338: del x460
    .del 489,
    -- 3339: x467 += einsum("ijab->jiba", x461)
    .add 249 (.ein [(491, [0, 1, 2, 3])] [1, 0, 3, 2]) 1 1,
    -- 3340: del x461
    .del 491,
    -- 3341: x576 += einsum("ij->ij", x201)
    .add 194 (.ein [(490, [0, 1])] [0, 1]) 1 1,
    -- 3342: del x201
    .del 490,
    -- 3343: x202 = np.zeros((nocc[1], nocc[1]), dtype=types[float])
    .zeros 492 [4, 4],
    -- 3344: x202 += einsum("wxai,wxja->ij", lu12.bb, u12.bb)
    .add 492 (.ein [(36, [0, 1, 2, 3]), (29, [0, 1, 4, 2])] [3, 4]) 1 1,
    -- 3345: x205 += einsum("ij->ij", x202) * 0.5
    .add 192 (.ein [(492, [0, 1])] [0, 1]) 1 2,
    -- 3346: x225 += einsum("ij->ij", x202)
    .add 200 (.ein [(492, [0, 1])] [0, 1]) 1 1,
    -- 3347: x488 += einsum("ij->ij", x202) * 0.5
    .add 193 (.ein [(492, [0, 1])] [0, 1]) 1 2,
    -- 3348: x576 += einsum("ij->ij", x202) * 0.5
    .add 194 (.ein [(492, [0, 1])] [0, 1]) 1 2,
    -- 3349: del x202
    .del 492,
    -- 3350: x203 = np.zeros((nocc[1], nocc[1]), dtype=types[float])
    .zeros 493 [4, 4],
    -- 3351: x203 += einsum("abij,ikab->jk", l2.abab, t2.abab)
    .add 493 (.ein [(8, [0, 1, 2, 3]), (9, [2, 4, 0, 1])] [3, 4]) 1 1,
    -- 3352: x205 += einsum("ij->ij", x203)
    .add 192 (.ein [(493, [0, 1])] [0, 1]) 1 1,
    -- 3353: x206 = np.zeros((nocc[1], nvir[1]), dtype=types[float])
    .zeros 494 [4, 5],
    -- 3354: x206 += einsum("ia,ij->ja", t1.bb, x205)
    .add 494 (.ein [(12, [0, 1]), (192, [0, 2])] [2, 1]) 1 1,
    -- 3355: x207 += einsum("ia->ia", x206)
    .add 95 (.ein [(494, [0, 1])] [0, 1]) 1 1,
    -- 3356: del x206
    .del 494,
    -- 3357: x550 = np.zeros((nocc[0], nocc[1], nvir[0], nvir[1]), dtype=types[float])
    .zeros 495 [0, 4, 1, 5],
    -- 3358: x550 += einsum("ij,kajb->kiab", x205, v.aabb.ovov)
    .add 495 (.ein [(192, [0, 1]), (14, [2, 3, 1, 4])] [2, 0, 3, 4]) 1 1,
    -- 3359: l2new_baba += einsum("ijab->baji", x550) * -1
    .add 91 (.ein [(495, [0, 1, 2, 3])] [3, 2, 1, 0]) (-1) 1,
    -- 3360: l2new_abab += einsum("ijab->abij", x550) * -1
    .add 92 (.ein [(495, [0, 1, 2, 3])] [2, 3, 0, 1]) (-1) 1,
    -- 3361: del x550
    .del 495,
    -- 3362: l1new_bb += einsum("ij,ja->ai", x205, x95) * -1
    .add 85 (.ein [(192, [0, 1]), (307, [1, 2])] [2, 0]) (-1) 1,
    -- 3363: del x205
    .del 192,
    -- 3364: del x95
    .del 307,
    -- 3365: x225 += einsum("ij->ij", x203) * 2
    .add 200 (.ein [(493, [0, 1])] [0, 1]) 2 1,
    -- 3366: l1new_aa += einsum("ij,kaji->ak", x225, v.aabb.ovoo) * -0.5
    .add 84 (.ein [(200, [0, 1]), (10, [2, 3, 1, 0])] [3, 2]) (-1) 2,
    -- 3367: l1new_bb += einsum("ij,kjia->ak", x225, x147) * -0.5
    .add 85 (.ein [(200, [0, 1]), (413, [2, 1, 0, 3])] [3, 2]) (-1) 2,
    -- 3368: del x225
    .del 200,
    -- 3369: del x147
    .del 413,
    -- 3370: x488 += einsum("ij->ij", x203)
    .add 193 (.ein [(493, [0, 1])] [0, 1]) 1 1,
    -- 3371: x489 = np.zeros((nocc[1], nocc[1], nvir[1], nvir[1]), dtype=types[float])
    .zeros 496 [4, 4, 5, 5],
    -- 3372: x489 += einsum("ij,jakb->kiab", x488, v.bbbb.ovov)
    .add 496 (.ein [(193, [0, 1]), (53, [1, 2, 3, 4])] [3, 0, 2, 4]) 1 1,
    -- 3373: del x488
    .del 193,
    -- 3374: x491 += einsum("ijab->jiba", x489)
    .add 406 (.ein [(496, [0, 1, 2, 3])] [1, 0, 3, 2]) 1 1,
    -- 3375: del x489
    .del 496,
    -- 3376: x576 += einsum("ij->ij", x203)
    .add 194 (.ein [(493, [0, 1])] [0, 1]) 1 1,
    -- 3377: del x203
    .del 493,
    -- 3378: ls1new += einsum("ij,wji->w", x576, g.bb.boo) * -1
    .add 373 (.ein [(194, [0, 1]), (4, [2, 1, 0])] [2]) (-1) 1,
    -- 3379: del x576
    .del 194,
    -- 3380: x207 += einsum("ia->ia", t1.bb) * -1
    .add 95 (.ein [(12, [0, 1])] [0, 1]) (-1) 1,
    -- 3381: l1new_aa += einsum("ia,jbia->bj", x207, v.aabb.ovov) * -1
    .add 84 (.ein [(95, [0, 1]), (14, [2, 3, 0, 1])] [3, 2]) (-1) 1,
    -- 3382: l1new_bb += einsum("ia,ijba->bj", x207, x93)
    .add 85 (.ein [(95, [0, 1]), (314, [0, 2, 3, 1])] [3, 2]) 1 1,
    -- 3383: ls1new += einsum("ia,wia->w", x207, g.bb.bov) * -1
    .add 373 (.ein [(95, [0, 1]), (6, [2, 0, 1])] [2]) (-1) 1,
    -- 3384: del x207
    .del 95,
    -- 3385: x208 = np.zeros((nvir[1], nvir[1]), dtype=types[float])
    .zeros 497 [5, 5],
    -- 3386: x208 += einsum("ai,ib->ab", l1.bb, t1.bb)
    .add 497 (.ein [(44, [0, 1]), (12, [1, 2])] [0, 2]) 1 1,
    -- 3387: x213 += einsum("ab->ab", x208)
    .add 196 (.ein [(497, [0, 1])] [0, 1]) 1 1,
    -- 3388: ls1new += einsum("ab,wab->w", x208, g.bb.bvv)
    .add 373 (.ein [(497, [0, 1]), (7, [2, 0, 1])] [2]) 1 1,
    -- 3389: del x208
    .del 497,
    -- 3390: x209 = np.zeros((nvir[1], nvir[1]), dtype=types[float])
    .zeros 498 [5, 5],
    -- 3391: x209 += einsum("wai,wib->ab", lu11.bb, u11.bb)
    .add 498 (.ein [(65, [0, 1, 2]), (50, [0, 2, 3])] [1, 3]) 1 1,
    -- 3392: x213 += einsum("ab->ab", x209)
    .add 196 (.ein [(498, [0, 1])] [0, 1]) 1 1,
    -- 3393: x425 = np.zeros((nocc[1], nocc[1], nvir[1], nvir[1]), dtype=types[float])
    .zeros 499 [4, 4, 5, 5],
    -- 3394: x425 += einsum("ab,icjb->ijac", x209, v.bbbb.ovov)
    .add 499 (.ein [(498, [0, 1]), (53, [2, 3, 4, 1])] [2, 4, 0, 3]) 1 1,
    -- 3395: x467 += einsum("ijab->ijab", x425)
    .add 249 (.ein [(499, [0, 1, 2, 3])] [0, 1, 2, 3]) 1 1,
    -- 3396: del x425
    .del 499,
    -- 3397: x547 += einsum("ab->ab", x209)
    .add 198 (.ein [(498, [0, 1])] [0, 1]) 1 1,
    -- 3398: x566 += einsum("ab->ab", x209) * 2
    .add 202 (.ein [(498, [0, 1])] [0, 1]) 2 1,
    -- 3399: del x209
    .del 498,
    -- 3400: x210 = np.zeros((nvir[1], nvir[1]), dtype=types[float])
    .zeros 500 [5, 5],
    -- 3401: x210 += einsum("wxai,wxib->ab", lu12.bb, u12.bb)
    .add 500 (.ein [(36, [0, 1, 2, 3]), (29, [0, 1, 3, 4])] [2, 4]) 1 1,
    -- 3402: x213 += einsum("ab->ab", x210) * 0.5
    .add 196 (.ein [(500, [0, 1])] [0, 1]) 1 2,
    -- 3403: x478 += einsum("ab->ab", x210) * 0.5
    .add 197 (.ein [(500, [0, 1])] [0, 1]) 1 2,
    -- 3404: x547 += einsum("ab->ab", x210) * 0.5
    .add 198 (.ein [(500, [0, 1])] [0, 1]) 1 2,
    -- 3405: x566 += einsum("ab->ab", x210)
    .add 202 (.ein [(500, [0, 1])] [0, 1]) 1 1,
    -- 3406: del x210
    .del 500,
    -- 3407: x211 = np.zeros((nvir[1], nvir[1]), dtype=types[float])
    .zeros 501 [5, 5],
    -- 3408: x211 += einsum("abij,ijac->bc", l2.abab, t2.abab)
    .add 501 (.ein [(8, [0, 1, 2, 3]), (9, [2, 3, 0, 4])] [1, 4]) 1 1,
    -- 3409: x213 += einsum("ab->ab", x211)
    .add 196 (.ein [(501, [0, 1])] [0, 1]) 1 1,
    -- 3410: l1new_aa += einsum("ab,icab->ci", x213, v.aabb.ovvv)
    .add 84 (.ein [(196, [0, 1]), (17, [2, 3, 0, 1])] [3, 2]) 1 1,
    -- 3411: l1new_bb += einsum("ab,iabc->ci", x213, x154)
    .add 85 (.ein [(196, [0, 1]), (423, [2, 0, 1, 3])] [3, 2]) 1 1,
    -- 3412: del x213
    .del 196,
    -- 3413: x478 += einsum("ab->ab", x211)
    .add 197 (.ein [(501, [0, 1])] [0, 1]) 1 1,
    -- 3414: x479 = np.zeros((nocc[1], nocc[1], nvir[1], nvir[1]), dtype=types[float])
    .zeros 502 [4, 4, 5, 5],
    -- 3415: x479 += einsum("ab,ibjc->ijca", x478, v.bbbb.ovov)
    .add 502 (.ein [(197, [0, 1]), (53, [2, 1, 3, 4])] [2, 3, 4, 0]) 1 1,
    -- 3416: del x478
    .del 197,
    -- 3417: x491 += einsum("ijab->jiba", x479)
    .add 406 (.ein [(502, [0, 1, 2, 3])] [1, 0, 3, 2]) 1 1,
    -- 3418: del x479
    .del 502,
    -- 3419: x547 += einsum("ab->ab", x211)
    .add 198 (.ein [(501, [0, 1])] [0, 1]) 1 1,
    -- 3420: l2new_baba += einsum("ab,icjb->acji", x547, v.aabb.ovov) * -1
    .add 91 (.ein [(198, [0, 1]), (14, [2, 3, 4, 1])] [0, 3, 4, 2]) (-1) 1,
    -- 3421: ls1new += einsum("ab,wab->w", x547, g.bb.bvv)
    .add 373 (.ein [(198, [0, 1]), (7, [2, 0, 1])] [2]) 1 1,
    -- 3422: del x547
    .del 198,
    -- 3423: x566 += einsum("ab->ab", x211) * 2
    .add 202 (.ein [(501, [0, 1])] [0, 1]) 2 1,
    -- 3424: del x211
    .del 501,
    -- 3425: l2new_abab += einsum("ab,icjb->caij", x566, v.aabb.ovov) * -0.5
    .add 92 (.ein [(202, [0, 1]), (14, [2, 3, 4, 1])] [3, 0, 2, 4]) (-1) 2,
    -- 3426: del x566
    .del 202,
    -- 3427: x216 = np.zeros((nbos, nocc[0], nocc[0]), dtype=types[float])
    .zeros 503 [2, 0, 0],
    -- 3428: x216 += einsum("wia,wxja->xij", g.aa.bov, u12.aa)
    .add 503 (.ein [(2, [0, 1, 2]), (25, [0, 3, 4, 2])] [3, 1, 4]) 1 1,
    -- 3429: x223 += einsum("wij->wij", x216)
    .add 221 (.ein [(503, [0, 1, 2])] [0, 1, 2]) 1 1,
    -- 3430: del x216
    .del 503,
    -- 3431: x217 = np.zeros((nbos, nocc[0], nocc[0]), dtype=types[float])
    .zeros 504 [2, 0, 0],
    -- 3432: x217 += einsum("wia,jkia->wjk", u11.bb, v.aabb.ooov)
    .add 504 (.ein [(50, [0, 1, 2]), (11, [3, 4, 1, 2])] [0, 3, 4]) 1 1,
    -- 3433: x223 += einsum("wij->wij", x217)
    .add 221 (.ein [(504, [0, 1, 2])] [0, 1, 2]) 1 1,
    -- 3434: del x217
    .del 504,
    -- 3435: x220 += einsum("wia->wia", gc.aa.bov)
    .add 123 (.ein [(74, [0, 1, 2])] [0, 1, 2]) 1 1,
    -- 3436: x221 = np.zeros((nbos, nocc[0], nocc[0]), dtype=types[float])
    .zeros 505 [2, 0, 0],
    -- 3437: x221 += einsum("ia,wja->wij", t1.aa, x220)
    .add 505 (.ein [(13, [0, 1]), (123, [2, 3, 1])] [2, 0, 3]) 1 1,
    -- 3438: del x220
    .del 123,
    -- 3439: x223 += einsum("wij->wji", x221)
    .add 221 (.ein [(505, [0, 1, 2])] [0, 2, 1]) 1 1,
    -- 3440: del x221
    .del 505,
    -- 3441: x223 += einsum("wij->wij", gc.aa.boo)
    .add 221 (.ein [(73, [0, 1, 2])] [0, 1, 2]) 1 1,
    -- 3442: x575 += einsum("ia,wij->wja", t1.aa, x223)
    .add 178 (.ein [(13, [0, 1]), (221, [2, 0, 3])] [2, 3, 1]) 1 1,
    -- 3443: l1new_aa += einsum("wai,wji->aj", lu11.aa, x223) * -1
    .add 84 (.ein [(51, [0, 1, 2]), (221, [0, 3, 2])] [1, 3]) (-1) 1,
    -- 3444: del x223
    .del 221,
    -- 3445: x226 = np.zeros((nbos, nocc[1], nvir[1]), dtype=types[float])
    .zeros 506 [2, 4, 5],
    -- 3446: x226 += einsum("wia,iajb->wjb", u11.aa, v.aabb.ovov)
    .add 506 (.ein [(24, [0, 1, 2]), (14, [1, 2, 3, 4])] [0, 3, 4]) 1 1,
    -- 3447: x228 += einsum("wia->wia", x226)
    .add 321 (.ein [(506, [0, 1, 2])] [0, 1, 2]) 1 1,
    -- 3448: x316 += einsum("wia->wia", x226)
    .add 323 (.ein [(506, [0, 1, 2])] [0, 1, 2]) 1 1,
    -- 3449: x330 += einsum("wia->wia", x226)
    .add 324 (.ein [(506, [0, 1, 2])] [0, 1, 2]) 1 1,
    -- 3450: x458 = np.zeros((nbos, nocc[1], nvir[1]), dtype=types[float])
    .zeros 507 [2, 4, 5],
    -- 3451: x458 += einsum("wia->wia", x226)
    .add 507 (.ein [(506, [0, 1, 2])] [0, 1, 2]) 1 1,
    -- 3452: x555 = np.zeros((nbos, nocc[1], nvir[1]), dtype=types[float])
    .zeros 508 [2, 4, 5],
    -- 3453: x555 += einsum("wia->wia", x226)
    .add 508 (.ein [(506, [0, 1, 2])] [0, 1, 2]) 1 1,
    -- 3454: del x226
    .del 506,
    -- 3455: x228 += einsum("wia->wia", gc.bb.bov)
    .add 321 (.ein [(78, [0, 1, 2])] [0, 1, 2]) 1 1,
    -- 3456: x233 += einsum("wia,xia->xw", u11.bb, x228)
    .add 222 (.ein [(50, [0, 1, 2]), (321, [3, 1, 2])] [3, 0]) 1 1,
    -- 3457: x334 += einsum("wia,xia->xw", u11.bb, x228) * 2
    .add 225 (.ein [(50, [0, 1, 2]), (321, [3, 1, 2])] [3, 0]) 2 1,
    -- 3458: del x228
    .del 321,
    -- 3459: x229 += einsum("wia->wia", gc.aa.bov) * 2
    .add 124 (.ein [(74, [0, 1, 2])] [0, 1, 2]) 2 1,
    -- 3460: x233 += einsum("wia,xia->xw", u11.aa, x229) * 0.5
    .add 222 (.ein [(24, [0, 1, 2]), (124, [3, 1, 2])] [3, 0]) 1 2,
    -- 3461: x334 += einsum("wia,xia->xw", u11.aa, x229)
    .add 225 (.ein [(24, [0, 1, 2]), (124, [3, 1, 2])] [3, 0]) 1 1,
    -- 3462: del x229
    .del 124,
    -- 3463: x230 = np.zeros((nbos, nbos), dtype=types[float])
    .zeros 509 [2, 2],
    -- 3464: x230 += einsum("wia,xia->wx", g.aa.bov, u11.aa)
    .add 509 (.ein [(2, [0, 1, 2]), (24, [3, 1, 2])] [0, 3]) 1 1,
    -- 3465: x232 = np.zeros((nbos, nbos), dtype=types[float])
    .zeros 510 [2, 2],
    -- 3466: x232 += einsum("wx->wx", x230)
    .add 510 (.ein [(509, [0, 1])] [0, 1]) 1 1,
    -- 3467: x603 = np.zeros((nbos, nbos), dtype=types[float])
    .zeros 511 [2, 2],
    -- 3468: x603 += einsum("wx->wx", x230)
    .add 511 (.ein [(509, [0, 1])] [0, 1]) 1 1,
    -- 3469: del x230
    .del 509,
    -- 3470: x231 = np.zeros((nbos, nbos), dtype=types[float])
    .zeros 512 [2, 2],
    -- 3471: x231 += einsum("wia,xia->wx", g.bb.bov, u11.bb)
    .add 512 (.ein [(6, [0, 1, 2]), (50, [3, 1, 2])] [0, 3]) 1 1,
    -- 3472: x232 += einsum("wx->wx", x231)
    .add 510 (.ein [(512, [0, 1])] [0, 1]) 1 1,
    -- 3473: x603 += einsum("wx->wx", x231)
    .add 511 (.ein [(512, [0, 1])] [0, 1]) 1 1,
    -- 3474: del x231
    .del 512,
    -- 3475: x604 = np.zeros((nbos, nbos), dtype=types[float])
    .zeros 513 [2, 2],
    -- 3476: x604 += einsum("wx,yw->xy", ls2, x603)
    .add 513 (.ein [(38, [0, 1]), (511, [2, 0])] [1, 2]) 1 1,
    -- 3477: x605 += einsum("wx->xw", x604)
    .add 244 (.ein [(513, [0, 1])] [1, 0]) 1 1,
    -- 3478: del x604
    .del 513,
    -- 3479: x611 = np.zeros((nbos, nbos, nocc[0], nvir[0]), dtype=types[float])
    .zeros 514 [2, 2, 0, 1],
    -- 3480: x611 += einsum("wx,xyai->ywia", x603, lu12.aa)
    .add 514 (.ein [(511, [0, 1]), (33, [1, 2, 3, 4])] [2, 0, 4, 3]) 1 1,
    -- 3481: x612 -= einsum("wxia->xwia", x611)
    .add 437 (.ein [(514, [0, 1, 2, 3])] [1, 0, 2, 3]) (-1) 1,
    -- 3482: del x611
    .del 514,
    -- 3483: x629 = np.zeros((nbos, nbos, nocc[1], nvir[1]), dtype=types[float])
    .zeros 515 [2, 2, 4, 5],
    -- 3484: x629 += einsum("wx,xyai->ywia", x603, lu12.bb)
    .add 515 (.ein [(511, [0, 1]), (36, [1, 2, 3, 4])] [2, 0, 4, 3]) 1 1,
    -- 3485: del x603
    .del 511,
    -- 3486: x630 -= einsum("wxia->xwia", x629)
    .add 485 (.ein [(515, [0, 1, 2, 3])] [1, 0, 2, 3]) (-1) 1,
    -- 3487: del x629
    .del 515,
    -- 3488: x232 += einsum("wx->wx", w)
    .add 510 (.ein [(66, [0, 1])] [0, 1]) 1 1,
    -- 3489: x233 += einsum("wx,wy->xy", s2, x232)
    .add 222 (.ein [(49, [0, 1]), (510, [0, 2])] [1, 2]) 1 1,
    -- 3490: l1new_aa += einsum("wx,xwai->ai", x233, lu12.aa)
    .add 84 (.ein [(222, [0, 1]), (33, [1, 0, 2, 3])] [2, 3]) 1 1,
    -- 3491: del x233
    .del 222,
    -- 3492: x334 += einsum("wx,wy->xy", s2, x232) * 2
    .add 225 (.ein [(49, [0, 1]), (510, [0, 2])] [1, 2]) 2 1,
    -- 3493: l1new_bb += einsum("wx,xwai->ai", x334, lu12.bb) * 0.5
    .add 85 (.ein [(225, [0, 1]), (36, [1, 0, 2, 3])] [2, 3]) 1 2,
    -- 3494: del x334
    .del 225,
    -- 3495: x571 += einsum("wx,wia->xia", x232, u11.bb) * -1
    .add 286 (.ein [(510, [0, 1]), (50, [0, 2, 3])] [1, 2, 3]) (-1) 1,
    -- 3496: x575 += einsum("wx,wia->xia", x232, u11.aa) * -1
    .add 178 (.ein [(510, [0, 1]), (24, [0, 2, 3])] [1, 2, 3]) (-1) 1,
    -- 3497: del x232
    .del 510,
    -- 3498: x234 = np.zeros((nbos, nocc[0], nvir[0]), dtype=types[float])
    .zeros 516 [2, 0, 1],
    -- 3499: x234 += einsum("wx,wai->xia", s2, lu11.aa)
    .add 516 (.ein [(49, [0, 1]), (51, [0, 2, 3])] [1, 3, 2]) 1 1,
    -- 3500: x238 = np.zeros((nbos, nocc[0], nvir[0]), dtype=types[float])
    .zeros 517 [2, 0, 1],
    -- 3501: x238 += einsum("wia->wia", x234)
    .add 517 (.ein [(516, [0, 1, 2])] [0, 1, 2]) 1 1,
    -- 3502: del x234
    .del 516,
    -- 3503: x235 = np.zeros((nbos, nocc[0], nvir[0]), dtype=types[float])
    .zeros 518 [2, 0, 1],
    -- 3504: x235 += einsum("wia,baji->wjb", u11.bb, l2.abab)
    .add 518 (.ein [(50, [0, 1, 2]), (8, [3, 2, 4, 1])] [0, 4, 3]) 1 1,
    -- 3505: x238 += einsum("wia->wia", x235)
    .add 517 (.ein [(518, [0, 1, 2])] [0, 1, 2]) 1 1,
    -- 3506: x246 = np.zeros((nbos, nocc[0], nvir[0]), dtype=types[float])
    .zeros 519 [2, 0, 1],
    -- 3507: x246 += einsum("wia->wia", x235)
    .add 519 (.ein [(518, [0, 1, 2])] [0, 1, 2]) 1 1,
    -- 3508: x248 = np.zeros((nbos, nocc[0], nvir[0]), dtype=types[float])
    .zeros 520 [2, 0, 1],
    -- 3509: x248 += einsum("wia->wia", x235)
    .add 520 (.ein [(518, [0, 1, 2])] [0, 1, 2]) 1 1,
    -- 3510: del x235
    .del 518,
    -- 3511: x236 = np.zeros((nocc[0], nocc[0], nvir[0], nvir[0]), dtype=types[float])
    .zeros 521 [0, 0, 1, 1],
    -- 3512: x236 += einsum("abij->jiab", l2.aaaa)
    .add 521 (.ein [(26, [0, 1, 2, 3])] [3, 2, 0, 1]) 1 1,
    -- 3513: x236 -= einsum("abij->jiba", l2.aaaa)
    .add 521 (.ein [(26, [0, 1, 2, 3])] [3, 2, 1, 0]) (-1) 1,
    -- 3514: x237 = np.zeros((nbos, nocc[0], nvir[0]), dtype=types[float])
    .zeros 522 [2, 0, 1],
    -- 3515: x237 += einsum("wia,ijab->wjb", u11.aa, x236)
    .add 522 (.ein [(24, [0, 1, 2]), (521, [1, 3, 2, 4])] [0, 3, 4]) 1 1,
    -- 3516: x238 -= einsum("wia->wia", x237)
    .add 517 (.ein [(522, [0, 1, 2])] [0, 1, 2]) (-1) 1,
    -- 3517: x380 = np.zeros((nocc[0], nocc[0], nvir[0], nvir[0]), dtype=types[float])
    .zeros 523 [0, 0, 1, 1],
    -- 3518: x380 += einsum("wia,wjb->ijab", g.aa.bov, x238)
    .add 523 (.ein [(2, [0, 1, 2]), (517, [0, 3, 4])] [1, 3, 2, 4]) 1 1,
    -- 3519: x390 += einsum("ijab->ijab", x380)
    .add 98 (.ein [(523, [0, 1, 2, 3])] [0, 1, 2, 3]) 1 1,
    -- 3520: del x380
    .del 523,
    -- 3521: l1new_aa += einsum("wab,wia->bi", g.aa.bvv, x238)
    .add 84 (.ein [(3, [0, 1, 2]), (517, [0, 3, 1])] [2, 3]) 1 1,
    -- 3522: del x238
    .del 517,
    -- 3523: x248 -= einsum("wia->wia", x237)
    .add 520 (.ein [(522, [0, 1, 2])] [0, 1, 2]) (-1) 1,
    -- 3524: del x237
    .del 522,
    -- 3525: x558 = np.zeros((nocc[0], nocc[1], nvir[0], nvir[1]), dtype=types[float])
    .zeros 524 [0, 4, 1, 5],
    -- 3526: x558 += einsum("wia,wjb->jiba", g.bb.bov, x248)
    .add 524 (.ein [(6, [0, 1, 2]), (520, [0, 3, 4])] [3, 1, 4, 2]) 1 1,
    -- 3527: l2new_baba += einsum("ijab->baji", x558)
    .add 91 (.ein [(524, [0, 1, 2, 3])] [3, 2, 1, 0]) 1 1,
    -- 3528: l2new_abab += einsum("ijab->abij", x558)
    .add 92 (.ein [(524, [0, 1, 2, 3])] [2, 3, 0, 1]) 1 1,
    -- 3529: del x558
    .del 524,
    -- 3530: l1new_aa += einsum("wia,wji->aj", x248, x99) * -1
    .add 84 (.ein [(520, [0, 1, 2]), (341, [0, 3, 1])] [2, 3]) (-1) 1,
    -- 3531: del x248
    .del 520,
    -- 3532: del x99
    .del 341,
    -- 3533: lu11new_aa -= einsum("wai,ijab->wbj", g.aa.bvo, x236)
    .add 226 (.ein [(1, [0, 1, 2]), (521, [2, 3, 1, 4])] [0, 4, 3]) (-1) 1,
    -- 3534: del x236
    .del 521,
    -- 3535: x239 = np.zeros((nbos, nvir[0], nvir[0]), dtype=types[float])
    .zeros 525 [2, 1, 1],
    -- 3536: x239 += einsum("wia,iabc->wbc", u11.bb, v.bbaa.ovvv)
    .add 525 (.ein [(50, [0, 1, 2]), (15, [1, 2, 3, 4])] [0, 3, 4]) 1 1,
    -- 3537: x241 = np.zeros((nbos, nvir[0], nvir[0]), dtype=types[float])
    .zeros 526 [2, 1, 1],
    -- 3538: x241 += einsum("wab->wab", x239)
    .add 526 (.ein [(525, [0, 1, 2])] [0, 1, 2]) 1 1,
    -- 3539: x572 += einsum("wab->wab", x239)
    .add 364 (.ein [(525, [0, 1, 2])] [0, 1, 2]) 1 1,
    -- 3540: del x239
    .del 525,
    -- 3541: x240 = np.zeros((nocc[0], nvir[0], nvir[0], nvir[0]), dtype=types[float])
    .zeros 527 [0, 1, 1, 1],
    -- 3542: x240 -= einsum("iabc->ibac", v.aaaa.ovvv)
    .add 527 (.ein [(22, [0, 1, 2, 3])] [0, 2, 1, 3]) (-1) 1,
    -- 3543: x240 += einsum("iabc->ibca", v.aaaa.ovvv)
    .add 527 (.ein [(22, [0, 1, 2, 3])] [0, 2, 3, 1]) 1 1,
    -- 3544: x241 -= einsum("wia,ibac->wbc", u11.aa, x240)
    .add 526 (.ein [(24, [0, 1, 2]), (527, [1, 3, 2, 4])] [0, 3, 4]) (-1) 1,
    -- 3545: x356 = np.zeros((nocc[0], nocc[0], nvir[0], nvir[0]), dtype=types[float])
    .zeros 528 [0, 0, 1, 1],
    -- 3546: x356 += einsum("ia,jbca->ijbc", t1.aa, x240)
    .add 528 (.ein [(13, [0, 1]), (527, [2, 3, 4, 1])] [0, 2, 3, 4]) 1 1,
    -- 3547: x357 = np.zeros((nocc[0], nocc[0], nvir[0], nvir[0]), dtype=types[float])
    .zeros 529 [0, 0, 1, 1],
    -- 3548: x357 -= einsum("ijab->ijab", x356)
    .add 529 (.ein [(528, [0, 1, 2, 3])] [0, 1, 2, 3]) (-1) 1,
    -- 3549: del x356
    .del 528,
    -- 3550: x369 = np.zeros((nvir[0], nvir[0]), dtype=types[float])
    .zeros 530 [1, 1],
    -- 3551: x369 += einsum("ia,ibac->bc", t1.aa, x240)
    .add 530 (.ein [(13, [0, 1]), (527, [0, 2, 1, 3])] [2, 3]) 1 1,
    -- 3552: del x240
    .del 527,
    -- 3553: x370 -= einsum("ab->ab", x369)
    .add 361 (.ein [(530, [0, 1])] [0, 1]) (-1) 1,
    -- 3554: del x369
    .del 530,
    -- 3555: x371 = np.zeros((nocc[0], nocc[0], nvir[0], nvir[0]), dtype=types[float])
    .zeros 531 [0, 0, 1, 1],
    -- 3556: x371 += einsum("ab,acij->ijcb", x370, l2.aaaa)
    .add 531 (.ein [(361, [0, 1]), (26, [0, 2, 3, 4])] [3, 4, 2, 1]) 1 1,
    -- 3557: del x370
    .del 361,
    -- 3558: x390 += einsum("ijab->jiab", x371)
    .add 98 (.ein [(531, [0, 1, 2, 3])] [1, 0, 2, 3]) 1 1,
    -- 3559: del x371
    .del 531,
    -- 3560: x241 += einsum("wab->wab", gc.aa.bvv)
    .add 526 (.ein [(76, [0, 1, 2])] [0, 1, 2]) 1 1,
    -- 3561: l1new_aa += einsum("wai,wab->bi", lu11.aa, x241)
    .add 84 (.ein [(51, [0, 1, 2]), (526, [0, 1, 3])] [3, 2]) 1 1,
    -- 3562: del x241
    .del 526,
    -- 3563: x244 += einsum("wia->wia", gc.aa.bov)
    .add 269 (.ein [(74, [0, 1, 2])] [0, 1, 2]) 1 1,
    -- 3564: l1new_aa -= einsum("wij,wja->ai", x242, x244)
    .add 84 (.ein [(432, [0, 1, 2]), (269, [0, 2, 3])] [3, 1]) (-1) 1,
    -- 3565: del x242
    .del 432,
    -- 3566: del x244
    .del 269,
    -- 3567: x245 = np.zeros((nocc[0], nocc[0], nvir[0], nvir[0]), dtype=types[float])
    .zeros 532 [0, 0, 1, 1],
    -- 3568: x245 += einsum("abij->jiab", l2.aaaa)
    .add 532 (.ein [(26, [0, 1, 2, 3])] [3, 2, 0, 1]) 1 1,
    -- 3569: x245 += einsum("abij->jiba", l2.aaaa) * -1
    .add 532 (.ein [(26, [0, 1, 2, 3])] [3, 2, 1, 0]) (-1) 1,
    -- 3570: x246 += einsum("wia,ijab->wjb", u11.aa, x245) * -1
    .add 519 (.ein [(24, [0, 1, 2]), (532, [1, 3, 2, 4])] [0, 3, 4]) (-1) 1,
    -- 3571: x247 += einsum("ia,wja->wji", t1.aa, x246)
    .add 435 (.ein [(13, [0, 1]), (519, [2, 3, 1])] [2, 3, 0]) 1 1,
    -- 3572: del x246
    .del 519,
    -- 3573: x247 += einsum("ai,wja->wij", l1.aa, u11.aa)
    .add 435 (.ein [(28, [0, 1]), (24, [2, 3, 0])] [2, 1, 3]) 1 1,
    -- 3574: x247 += einsum("wai,wxja->xij", lu11.aa, u12.aa)
    .add 435 (.ein [(51, [0, 1, 2]), (25, [0, 3, 4, 1])] [3, 2, 4]) 1 1,
    -- 3575: l1new_aa += einsum("wia,wji->aj", g.aa.bov, x247) * -1
    .add 84 (.ein [(2, [0, 1, 2]), (435, [0, 3, 1])] [2, 3]) (-1) 1,
    -- 3576: del x247
    .del 435,
    -- 3577: x249 = np.zeros((nocc[0], nocc[0], nvir[0], nvir[0]), dtype=types[float])
    .zeros 533 [0, 0, 1, 1],
    -- 3578: x249 += einsum("iabj->ijba", v.aaaa.ovvo)
    .add 533 (.ein [(30, [0, 1, 2, 3])] [0, 3, 2, 1]) 1 1,
    -- 3579: x249 -= einsum("ijab->ijab", v.aaaa.oovv)
    .add 533 (.ein [(31, [0, 1, 2, 3])] [0, 1, 2, 3]) (-1) 1,
    -- 3580: l1new_aa += einsum("ai,jiab->bj", l1.aa, x249)
    .add 84 (.ein [(28, [0, 1]), (533, [2, 1, 0, 3])] [3, 2]) 1 1,
    -- 3581: lu11new_aa += einsum("wai,jiab->wbj", lu11.aa, x249)
    .add 226 (.ein [(51, [0, 1, 2]), (533, [3, 2, 1, 4])] [0, 4, 3]) 1 1,
    -- 3582: del x249
    .del 533,
    -- 3583: x250 = np.zeros((nbos), dtype=types[float])
    .zeros 534 [2],
    -- 3584: x250 += einsum("w,wx->x", s1, w)
    .add 534 (.ein [(18, [0]), (66, [0, 1])] [1]) 1 1,
    -- 3585: x258 += einsum("w->w", x250)
    .add 224 (.ein [(534, [0])] [0]) 1 1,
    -- 3586: x578 = np.zeros((nbos), dtype=types[float])
    .zeros 535 [2],
    -- 3587: x578 += einsum("w->w", x250)
    .add 535 (.ein [(534, [0])] [0]) 1 1,
    -- 3588: del x250
    .del 534,
    -- 3589: x251 = np.zeros((nbos), dtype=types[float])
    .zeros 536 [2],
    -- 3590: x251 += einsum("ia,wia->w", t1.aa, gc.aa.bov)
    .add 536 (.ein [(13, [0, 1]), (74, [2, 0, 1])] [2]) 1 1,
    -- 3591: x258 += einsum("w->w", x251)
    .add 224 (.ein [(536, [0])] [0]) 1 1,
    -- 3592: x578 += einsum("w->w", x251)
    .add 535 (.ein [(536, [0])] [0]) 1 1,
    -- 3593: del x251
    .del 536,
    -- 3594: x252 = np.zeros((nbos), dtype=types[float])
    .zeros 537 [2],
    -- 3595: x252 += einsum("ia,wia->w", t1.bb, gc.bb.bov)
    .add 537 (.ein [(12, [0, 1]), (78, [2, 0, 1])] [2]) 1 1,
    -- 3596: x258 += einsum("w->w", x252)
    .add 224 (.ein [(537, [0])] [0]) 1 1,
    -- 3597: x578 += einsum("w->w", x252)
    .add 535 (.ein [(537, [0])] [0]) 1 1,
    -- 3598: del x252
    .del 537,
    -- 3599: x253 = np.zeros((nbos), dtype=types[float])
    .zeros 538 [2],
    -- 3600: x253 += einsum("wia,wxia->x", g.aa.bov, u12.aa)
    .add 538 (.ein [(2, [0, 1, 2]), (25, [0, 3, 1, 2])] [3]) 1 1,
    -- 3601: x258 += einsum("w->w", x253)
    .add 224 (.ein [(538, [0])] [0]) 1 1,
    -- 3602: x578 += einsum("w->w", x253)
    .add 535 (.ein [(538, [0])] [0]) 1 1,
    -- 3603: del x253
    .del 538,
    -- 3604: x254 = np.zeros((nbos), dtype=types[float])
    .zeros 539 [2],
    -- 3605: x254 += einsum("wia,wxia->x", g.bb.bov, u12.bb)
    .add 539 (.ein [(6, [0, 1, 2]), (29, [0, 3, 1, 2])] [3]) 1 1,
    -- 3606: x258 += einsum("w->w", x254)
    .add 224 (.ein [(539, [0])] [0]) 1 1,
    -- 3607: x578 += einsum("w->w", x254)
    .add 535 (.ein [(539, [0])] [0]) 1 1,
    -- 3608: del x254
    .del 539,
    -- 3609: x258 += einsum("w->w", G)
    .add 224 (.ein [(57, [0])] [0]) 1 1,
    -- 3610: l1new_aa += einsum("w,wai->ai", x258, lu11.aa)
    .add 84 (.ein [(224, [0]), (51, [0, 1, 2])] [1, 2]) 1 1,
    -- 3611: l1new_bb += einsum("w,wai->ai", x258, lu11.bb)
    .add 85 (.ein [(224, [0]), (65, [0, 1, 2])] [1, 2]) 1 1,
    -- 3612: del x258
    .del 224,
    -- 3613: x259 = np.zeros((nbos), dtype=types[float])
    .zeros 540 [2],
    -- 3614: x259 += einsum("w,xw->x", ls1, s2)
    .add 540 (.ein [(37, [0]), (49, [1, 0])] [1]) 1 1,
    -- 3615: x264 = np.zeros((nbos), dtype=types[float])
    .zeros 541 [2],
    -- 3616: x264 += einsum("w->w", x259)
    .add 541 (.ein [(540, [0])] [0]) 1 1,
    -- 3617: del x259
    .del 540,
    -- 3618: x260 = np.zeros((nbos), dtype=types[float])
    .zeros 542 [2],
    -- 3619: x260 += einsum("ai,wia->w", l1.aa, u11.aa)
    .add 542 (.ein [(28, [0, 1]), (24, [2, 1, 0])] [2]) 1 1,
    -- 3620: x264 += einsum("w->w", x260)
    .add 541 (.ein [(542, [0])] [0]) 1 1,
    -- 3621: del x260
    .del 542,
    -- 3622: x261 = np.zeros((nbos), dtype=types[float])
    .zeros 543 [2],
    -- 3623: x261 += einsum("ai,wia->w", l1.bb, u11.bb)
    .add 543 (.ein [(44, [0, 1]), (50, [2, 1, 0])] [2]) 1 1,
    -- 3624: x264 += einsum("w->w", x261)
    .add 541 (.ein [(543, [0])] [0]) 1 1,
    -- 3625: del x261
    .del 543,
    -- 3626: x262 = np.zeros((nbos), dtype=types[float])
    .zeros 544 [2],
    -- 3627: x262 += einsum("wai,wxia->x", lu11.aa, u12.aa)
    .add 544 (.ein [(51, [0, 1, 2]), (25, [0, 3, 2, 1])] [3]) 1 1,
    -- 3628: x264 += einsum("w->w", x262)
    .add 541 (.ein [(544, [0])] [0]) 1 1,
    -- 3629: del x262
    .del 544,
    -- 3630: x263 = np.zeros((nbos), dtype=types[float])
    .zeros 545 [2],
    -- 3631: x263 += einsum("wai,wxia->x", lu11.bb, u12.bb)
    .add 545 (.ein [(65, [0, 1, 2]), (29, [0, 3, 2, 1])] [3]) 1 1,
    -- 3632: x264 += einsum("w->w", x263)
    .add 541 (.ein [(545, [0])] [0]) 1 1,
    -- 3633: del x263
    .del 545,
    -- 3634: x264 += einsum("w->w", s1)
    .add 541 (.ein [(18, [0])] [0]) 1 1,
    -- 3635: l1new_aa += einsum("w,wia->ai", x264, g.aa.bov)
    .add 84 (.ein [(541, [0]), (2, [0, 1, 2])] [2, 1]) 1 1,
    -- 3636: l1new_bb += einsum("w,wia->ai", x264, g.bb.bov)
    .add 85 (.ein [(541, [0]), (6, [0, 1, 2])] [2, 1]) 1 1,
    -- 3637: del x264
    .del 541,
    -- 3638: x265 = np.zeros((nocc[1], nocc[1], nvir[0], nvir[0]), dtype=types[float])
    .zeros 546 [4, 4, 1, 1],
    -- 3639: x265 += einsum("abij,ikcb->jkac", l2.abab, t2.abab)
    .add 546 (.ein [(8, [0, 1, 2, 3]), (9, [2, 4, 5, 1])] [3, 4, 0, 5]) 1 1,
    -- 3640: l1new_bb += einsum("iabc,jibc->aj", v.bbaa.ovvv, x265) * -1
    .add 85 (.ein [(15, [0, 1, 2, 3]), (546, [4, 0, 2, 3])] [1, 4]) (-1) 1,
    -- 3641: del x265
    .del 546,
    -- 3642: x266 += einsum("ia->ia", f.bb.ov)
    .add 308 (.ein [(54, [0, 1])] [0, 1]) 1 1,
    -- 3643: x267 = np.zeros((nocc[1], nocc[1], nocc[1], nvir[1]), dtype=types[float])
    .zeros 547 [4, 4, 4, 5],
    -- 3644: x267 += einsum("ia,jkab->jkib", x266, t2.bbbb)
    .add 547 (.ein [(308, [0, 1]), (34, [2, 3, 1, 4])] [2, 3, 0, 4]) 1 1,
    -- 3645: del x266
    .del 308,
    -- 3646: x268 = np.zeros((nocc[1], nocc[1], nocc[1], nvir[1]), dtype=types[float])
    .zeros 548 [4, 4, 4, 5],
    -- 3647: x268 += einsum("ijka->kjia", x267)
    .add 548 (.ein [(547, [0, 1, 2, 3])] [2, 1, 0, 3]) 1 1,
    -- 3648: del x267
    .del 547,
    -- 3649: x268 += einsum("ijak->ijka", v.bbbb.oovo) * -1
    .add 548 (.ein [(67, [0, 1, 2, 3])] [0, 1, 3, 2]) (-1) 1,
    -- 3650: x285 += einsum("ijka->kija", x268)
    .add 213 (.ein [(548, [0, 1, 2, 3])] [2, 0, 1, 3]) 1 1,
    -- 3651: x285 += einsum("ijka->jika", x268) * -1
    .add 213 (.ein [(548, [0, 1, 2, 3])] [1, 0, 2, 3]) (-1) 1,
    -- 3652: del x268
    .del 548,
    -- 3653: x269 = np.zeros((nocc[1], nocc[1], nocc[1], nvir[1]), dtype=types[float])
    .zeros 549 [4, 4, 4, 5],
    -- 3654: x269 += einsum("ijab,kbca->jikc", t2.bbbb, v.bbbb.ovvv)
    .add 549 (.ein [(34, [0, 1, 2, 3]), (43, [4, 3, 5, 2])] [1, 0, 4, 5]) 1 1,
    -- 3655: x278 += einsum("ijka->ijka", x269) * -1
    .add 317 (.ein [(549, [0, 1, 2, 3])] [0, 1, 2, 3]) (-1) 1,
    -- 3656: del x269
    .del 549,
    -- 3657: x270 = np.zeros((nocc[1], nocc[1], nvir[1], nvir[1]), dtype=types[float])
    .zeros 550 [4, 4, 5, 5],
    -- 3658: x270 += einsum("ia,jbca->ijcb", t1.bb, v.bbbb.ovvv)
    .add 550 (.ein [(12, [0, 1]), (43, [2, 3, 4, 1])] [0, 2, 4, 3]) 1 1,
    -- 3659: x271 = np.zeros((nocc[1], nocc[1], nocc[1], nvir[1]), dtype=types[float])
    .zeros 551 [4, 4, 4, 5],
    -- 3660: x271 += einsum("ia,jkba->ijkb", t1.bb, x270)
    .add 551 (.ein [(12, [0, 1]), (550, [2, 3, 4, 1])] [0, 2, 3, 4]) 1 1,
    -- 3661: del x270
    .del 550,
    -- 3662: x278 += einsum("ijka->ijka", x271) * -1
    .add 317 (.ein [(551, [0, 1, 2, 3])] [0, 1, 2, 3]) (-1) 1,
    -- 3663: del x271
    .del 551,
    -- 3664: x274 = np.zeros((nocc[1], nocc[1], nocc[1], nocc[1]), dtype=types[float])
    .zeros 552 [4, 4, 4, 4],
    -- 3665: x274 += einsum("ijab,kalb->ijkl", t2.bbbb, v.bbbb.ovov)
    .add 552 (.ein [(34, [0, 1, 2, 3]), (53, [4, 2, 5, 3])] [0, 1, 4, 5]) 1 1,
    -- 3666: x276 += einsum("ijkl->jilk", x274)
    .add 383 (.ein [(552, [0, 1, 2, 3])] [1, 0, 3, 2]) 1 1,
    -- 3667: x277 = np.zeros((nocc[1], nocc[1], nocc[1], nvir[1]), dtype=types[float])
    .zeros 553 [4, 4, 4, 5],
    -- 3668: x277 += einsum("ia,jkil->jkla", t1.bb, x276)
    .add 553 (.ein [(12, [0, 1]), (383, [2, 3, 0, 4])] [2, 3, 4, 1]) 1 1,
    -- 3669: del x276
    .del 383,
    -- 3670: x278 += einsum("ijka->jika", x277)
    .add 317 (.ein [(553, [0, 1, 2, 3])] [1, 0, 2, 3]) 1 1,
    -- 3671: del x277
    .del 553,
    -- 3672: x285 += einsum("ijka->jkia", x278)
    .add 213 (.ein [(317, [0, 1, 2, 3])] [1, 2, 0, 3]) 1 1,
    -- 3673: x285 += einsum("ijka->ikja", x278) * -1
    .add 213 (.ein [(317, [0, 1, 2, 3])] [0, 2, 1, 3]) (-1) 1,
    -- 3674: del x278
    .del 317,
    -- 3675: x495 += einsum("ijkl->jilk", x274)
    .add 384 (.ein [(552, [0, 1, 2, 3])] [1, 0, 3, 2]) 1 1,
    -- 3676: del x274
    .del 552,
    -- 3677: x496 = np.zeros((nocc[1], nocc[1], nvir[1], nvir[1]), dtype=types[float])
    .zeros 554 [4, 4, 5, 5],
    -- 3678: x496 += einsum("abij,ijkl->klab", l2.bbbb, x495)
    .add 554 (.ein [(35, [0, 1, 2, 3]), (384, [2, 3, 4, 5])] [4, 5, 0, 1]) 1 1,
    -- 3679: del x495
    .del 384,
    -- 3680: x499 = np.zeros((nocc[1], nocc[1], nvir[1], nvir[1]), dtype=types[float])
    .zeros 555 [4, 4, 5, 5],
    -- 3681: x499 += einsum("ijab->jiba", x496)
    .add 555 (.ein [(554, [0, 1, 2, 3])] [1, 0, 3, 2]) 1 1,
    -- 3682: del x496
    .del 554,
    -- 3683: x279 += einsum("ijka->jkia", v.bbbb.ooov) * -1
    .add 385 (.ein [(59, [0, 1, 2, 3])] [1, 2, 0, 3]) (-1) 1,
    -- 3684: x279 += einsum("ijka->jika", v.bbbb.ooov)
    .add 385 (.ein [(59, [0, 1, 2, 3])] [1, 0, 2, 3]) 1 1,
    -- 3685: x280 = np.zeros((nocc[1], nocc[1], nocc[1], nvir[1]), dtype=types[float])
    .zeros 556 [4, 4, 4, 5],
    -- 3686: x280 += einsum("ijka,jlba->likb", x279, x38)
    .add 556 (.ein [(385, [0, 1, 2, 3]), (190, [1, 4, 5, 3])] [4, 0, 2, 5]) 1 1,
    -- 3687: del x279
    .del 385,
    -- 3688: x285 += einsum("ijka->jkia", x280)
    .add 213 (.ein [(556, [0, 1, 2, 3])] [1, 2, 0, 3]) 1 1,
    -- 3689: x295 += einsum("ijka->jkia", x280)
    .add 214 (.ein [(556, [0, 1, 2, 3])] [1, 2, 0, 3]) 1 1,
    -- 3690: del x280
    .del 556,
    -- 3691: x283 = np.zeros((nocc[1], nocc[1], nocc[1], nocc[1]), dtype=types[float])
    .zeros 557 [4, 4, 4, 4],
    -- 3692: x283 += einsum("ia,jkla->ijlk", t1.bb, v.bbbb.ooov)
    .add 557 (.ein [(12, [0, 1]), (59, [2, 3, 4, 1])] [0, 2, 4, 3]) 1 1,
    -- 3693: x284 = np.zeros((nocc[1], nocc[1], nocc[1], nocc[1]), dtype=types[float])
    .zeros 558 [4, 4, 4, 4],
    -- 3694: x284 += einsum("ijkl->jkli", x283)
    .add 558 (.ein [(557, [0, 1, 2, 3])] [1, 2, 3, 0]) 1 1,
    -- 3695: x284 += einsum("ijkl->kjli", x283) * -1
    .add 558 (.ein [(557, [0, 1, 2, 3])] [2, 1, 3, 0]) (-1) 1,
    -- 3696: x294 = np.zeros((nocc[1], nocc[1], nocc[1], nocc[1]), dtype=types[float])
    .zeros 559 [4, 4, 4, 4],
    -- 3697: x294 += einsum("ijkl->ikjl", x283) * -1
    .add 559 (.ein [(557, [0, 1, 2, 3])] [0, 2, 1, 3]) (-1) 1,
    -- 3698: x294 += einsum("ijkl->ijkl", x283)
    .add 559 (.ein [(557, [0, 1, 2, 3])] [0, 1, 2, 3]) 1 1,
    -- 3699: x295 += einsum("ia,jikl->jkla", t1.bb, x294) * -1
    .add 214 (.ein [(12, [0, 1]), (559, [2, 0, 3, 4])] [2, 3, 4, 1]) (-1) 1,
    -- 3700: del x294
    .del 559,
    -- 3701: l1new_bb += einsum("abij,ikjb->ak", l2.bbbb, x295) * -1
    .add 85 (.ein [(35, [0, 1, 2, 3]), (214, [2, 4, 3, 1])] [0, 4]) (-1) 1,
    -- 3702: del x295
    .del 214,
    -- 3703: x427 = np.zeros((nocc[1], nocc[1], nvir[1], nvir[1]), dtype=types[float])
    .zeros 560 [4, 4, 5, 5],
    -- 3704: x427 += einsum("abij,jkli->klba", l2.bbbb, x283)
    .add 560 (.ein [(35, [0, 1, 2, 3]), (557, [3, 4, 5, 2])] [4, 5, 1, 0]) 1 1,
    -- 3705: del x283
    .del 557,
    -- 3706: x467 -= einsum("ijab->ijab", x427)
    .add 249 (.ein [(560, [0, 1, 2, 3])] [0, 1, 2, 3]) (-1) 1,
    -- 3707: del x427
    .del 560,
    -- 3708: x284 += einsum("ijkl->kijl", v.bbbb.oooo) * -1
    .add 558 (.ein [(68, [0, 1, 2, 3])] [2, 0, 1, 3]) (-1) 1,
    -- 3709: x284 += einsum("ijkl->kilj", v.bbbb.oooo)
    .add 558 (.ein [(68, [0, 1, 2, 3])] [2, 0, 3, 1]) 1 1,
    -- 3710: x285 += einsum("ia,ijkl->ljka", t1.bb, x284) * -1
    .add 213 (.ein [(12, [0, 1]), (558, [0, 2, 3, 4])] [4, 2, 3, 1]) (-1) 1,
    -- 3711: del x284
    .del 558,
    -- 3712: l1new_bb += einsum("abij,ikja->bk", l2.bbbb, x285)
    .add 85 (.ein [(35, [0, 1, 2, 3]), (213, [2, 4, 3, 0])] [1, 4]) 1 1,
    -- 3713: del x285
    .del 213,
    -- 3714: x286 = np.zeros((nocc[1], nocc[1], nvir[1], nvir[1]), dtype=types[float])
    .zeros 561 [4, 4, 5, 5],
    -- 3715: x286 += einsum("abij,ikac->jkbc", l2.abab, t2.abab)
    .add 561 (.ein [(8, [0, 1, 2, 3]), (9, [2, 4, 0, 5])] [3, 4, 1, 5]) 1 1,
    -- 3716: x289 = np.zeros((nocc[1], nocc[1], nvir[1], nvir[1]), dtype=types[float])
    .zeros 562 [4, 4, 5, 5],
    -- 3717: x289 += einsum("ijab->ijab", x286)
    .add 562 (.ein [(561, [0, 1, 2, 3])] [0, 1, 2, 3]) 1 1,
    -- 3718: x468 = np.zeros((nocc[1], nocc[1], nvir[1], nvir[1]), dtype=types[float])
    .zeros 563 [4, 4, 5, 5],
    -- 3719: x468 += einsum("ijab->ijab", x286)
    .add 563 (.ein [(561, [0, 1, 2, 3])] [0, 1, 2, 3]) 1 1,
    -- 3720: del x286
    .del 561,
    -- 3721: x287 = np.zeros((nocc[1], nocc[1], nvir[1], nvir[1]), dtype=types[float])
    .zeros 564 [4, 4, 5, 5],
    -- 3722: x287 += einsum("abij->jiab", l2.bbbb) * -1
    .add 564 (.ein [(35, [0, 1, 2, 3])] [3, 2, 0, 1]) (-1) 1,
    -- 3723: x287 += einsum("abij->jiba", l2.bbbb)
    .add 564 (.ein [(35, [0, 1, 2, 3])] [3, 2, 1, 0]) 1 1,
    -- 3724: x288 = np.zeros((nocc[1], nocc[1], nvir[1], nvir[1]), dtype=types[float])
    .zeros 565 [4, 4, 5, 5],
    -- 3725: x288 += einsum("ijab,ikac->kjcb", x287, x38)
    .add 565 (.ein [(564, [0, 1, 2, 3]), (190, [0, 4, 2, 5])] [4, 1, 5, 3]) 1 1,
    -- 3726: del x38
    .del 190,
    -- 3727: x289 += einsum("ijab->jiba", x288)
    .add 562 (.ein [(565, [0, 1, 2, 3])] [1, 0, 3, 2]) 1 1,
    -- 3728: x468 += einsum("ijab->jiba", x288)
    .add 563 (.ein [(565, [0, 1, 2, 3])] [1, 0, 3, 2]) 1 1,
    -- 3729: del x288
    .del 565,
    -- 3730: x469 = np.zeros((nocc[1], nocc[1], nvir[1], nvir[1]), dtype=types[float])
    .zeros 566 [4, 4, 5, 5],
    -- 3731: x469 += einsum("ijab,kica->jkbc", x145, x468)
    .add 566 (.ein [(407, [0, 1, 2, 3]), (563, [4, 0, 5, 2])] [1, 4, 3, 5]) 1 1,
    -- 3732: del x145
    .del 407,
    -- 3733: del x468
    .del 563,
    -- 3734: x491 += einsum("ijab->jiba", x469) * -1
    .add 406 (.ein [(566, [0, 1, 2, 3])] [1, 0, 3, 2]) (-1) 1,
    -- 3735: del x469
    .del 566,
    -- 3736: x344 = np.zeros((nbos, nocc[1], nvir[1]), dtype=types[float])
    .zeros 567 [2, 4, 5],
    -- 3737: x344 += einsum("wia,ijba->wjb", u11.bb, x287) * -1
    .add 567 (.ein [(50, [0, 1, 2]), (564, [1, 3, 4, 2])] [0, 3, 4]) (-1) 1,
    -- 3738: x472 = np.zeros((nocc[0], nocc[1], nvir[0], nvir[1]), dtype=types[float])
    .zeros 568 [0, 4, 1, 5],
    -- 3739: x472 += einsum("ijab,jkcb->ikac", t2.abab, x287)
    .add 568 (.ein [(9, [0, 1, 2, 3]), (564, [1, 4, 5, 3])] [0, 4, 2, 5]) 1 1,
    -- 3740: x473 = np.zeros((nocc[1], nocc[1], nvir[1], nvir[1]), dtype=types[float])
    .zeros 569 [4, 4, 5, 5],
    -- 3741: x473 += einsum("iajb,ikac->jkbc", v.aabb.ovov, x472) * -1
    .add 569 (.ein [(14, [0, 1, 2, 3]), (568, [0, 4, 1, 5])] [2, 4, 3, 5]) (-1) 1,
    -- 3742: del x472
    .del 568,
    -- 3743: x491 += einsum("ijab->jiba", x473)
    .add 406 (.ein [(569, [0, 1, 2, 3])] [1, 0, 3, 2]) 1 1,
    -- 3744: del x473
    .del 569,
    -- 3745: l1new_bb += einsum("ia,ijba->bj", x159, x287) * -1
    .add 85 (.ein [(211, [0, 1]), (564, [0, 2, 3, 1])] [3, 2]) (-1) 1,
    -- 3746: del x159
    .del 211,
    -- 3747: x289 += einsum("wxai,wxjb->ijab", lu12.bb, u12.bb) * 0.5
    .add 562 (.ein [(36, [0, 1, 2, 3]), (29, [0, 1, 4, 5])] [3, 4, 2, 5]) 1 2,
    -- 3748: l1new_bb += einsum("iabc,jiab->cj", x154, x289) * -1
    .add 85 (.ein [(423, [0, 1, 2, 3]), (562, [4, 0, 1, 2])] [3, 4]) (-1) 1,
    -- 3749: del x289
    .del 562,
    -- 3750: del x154
    .del 423,
    -- 3751: x290 += einsum("ijka->ikja", v.bbbb.ooov) * -1
    .add 386 (.ein [(59, [0, 1, 2, 3])] [0, 2, 1, 3]) (-1) 1,
    -- 3752: x290 += einsum("ijka->kija", v.bbbb.ooov)
    .add 386 (.ein [(59, [0, 1, 2, 3])] [2, 0, 1, 3]) 1 1,
    -- 3753: x293 += einsum("ijab,kjlb->ikla", t2.abab, x290) * -1
    .add 173 (.ein [(9, [0, 1, 2, 3]), (386, [4, 1, 5, 3])] [0, 4, 5, 2]) (-1) 1,
    -- 3754: x317 += einsum("wxia,jika->xwjk", u12.bb, x290) * -0.5
    .add 215 (.ein [(29, [0, 1, 2, 3]), (386, [4, 2, 5, 3])] [1, 0, 4, 5]) (-1) 2,
    -- 3755: del x290
    .del 386,
    -- 3756: x291 = np.zeros((nocc[1], nocc[1], nvir[0], nvir[0]), dtype=types[float])
    .zeros 570 [4, 4, 1, 1],
    -- 3757: x291 += einsum("ia,jabc->ijbc", t1.bb, v.bbaa.ovvv)
    .add 570 (.ein [(12, [0, 1]), (15, [2, 1, 3, 4])] [0, 2, 3, 4]) 1 1,
    -- 3758: x292 = np.zeros((nocc[1], nocc[1], nvir[0], nvir[0]), dtype=types[float])
    .zeros 571 [4, 4, 1, 1],
    -- 3759: x292 += einsum("ijab->jiab", x291)
    .add 571 (.ein [(570, [0, 1, 2, 3])] [1, 0, 2, 3]) 1 1,
    -- 3760: x525 = np.zeros((nocc[1], nocc[1], nvir[0], nvir[0]), dtype=types[float])
    .zeros 572 [4, 4, 1, 1],
    -- 3761: x525 += einsum("ijab->jiab", x291)
    .add 572 (.ein [(570, [0, 1, 2, 3])] [1, 0, 2, 3]) 1 1,
    -- 3762: del x291
    .del 570,
    -- 3763: x292 += einsum("ijab->ijab", v.bbaa.oovv)
    .add 571 (.ein [(16, [0, 1, 2, 3])] [0, 1, 2, 3]) 1 1,
    -- 3764: x293 += einsum("ia,jkba->ijkb", t1.aa, x292)
    .add 173 (.ein [(13, [0, 1]), (571, [2, 3, 4, 1])] [0, 2, 3, 4]) 1 1,
    -- 3765: del x292
    .del 571,
    -- 3766: x293 += einsum("ijak->kija", v.bbaa.oovo)
    .add 173 (.ein [(69, [0, 1, 2, 3])] [3, 0, 1, 2]) 1 1,
    -- 3767: x293 += einsum("ia,jabk->kjib", t1.bb, v.bbaa.ovvo)
    .add 173 (.ein [(12, [0, 1]), (52, [2, 1, 3, 4])] [4, 2, 0, 3]) 1 1,
    -- 3768: x293 += einsum("ijab,kbca->ikjc", t2.abab, v.bbaa.ovvv)
    .add 173 (.ein [(9, [0, 1, 2, 3]), (15, [4, 3, 5, 2])] [0, 4, 1, 5]) 1 1,
    -- 3769: l1new_bb += einsum("abij,ikja->bk", l2.abab, x293) * -1
    .add 85 (.ein [(8, [0, 1, 2, 3]), (173, [2, 4, 3, 0])] [1, 4]) (-1) 1,
    -- 3770: del x293
    .del 173,
    -- 3771: x296 = np.zeros((nocc[1], nocc[1], nvir[1], nvir[1]), dtype=types[float])
    .zeros 573 [4, 4, 5, 5],
    -- 3772: x296 += einsum("abij->jiab", l2.bbbb)
    .add 573 (.ein [(35, [0, 1, 2, 3])] [3, 2, 0, 1]) 1 1,
    -- 3773: x296 += einsum("abij->jiba", l2.bbbb) * -1
    .add 573 (.ein [(35, [0, 1, 2, 3])] [3, 2, 1, 0]) (-1) 1,
    -- 3774: x297 += einsum("ijab,jkcb->ikac", t2.abab, x296) * -2
    .add 161 (.ein [(9, [0, 1, 2, 3]), (573, [1, 4, 5, 3])] [0, 4, 2, 5]) (-2) 1,
    -- 3775: x297 += einsum("wxai,wxjb->jiba", lu12.bb, u12.aa) * -1
    .add 161 (.ein [(36, [0, 1, 2, 3]), (25, [0, 1, 4, 5])] [4, 3, 5, 2]) (-1) 1,
    -- 3776: l1new_bb += einsum("iabc,ijab->cj", v.aabb.ovvv, x297) * -0.5
    .add 85 (.ein [(17, [0, 1, 2, 3]), (161, [0, 4, 1, 2])] [3, 4]) (-1) 2,
    -- 3777: del x297
    .del 161,
    -- 3778: x300 = np.zeros((nocc[1], nocc[1], nvir[1], nvir[1]), dtype=types[float])
    .zeros 574 [4, 4, 5, 5],
    -- 3779: x300 += einsum("iajb->jiab", v.bbbb.ovov)
    .add 574 (.ein [(53, [0, 1, 2, 3])] [2, 0, 1, 3]) 1 1,
    -- 3780: x300 -= einsum("iajb->jiba", v.bbbb.ovov)
    .add 574 (.ein [(53, [0, 1, 2, 3])] [2, 0, 3, 1]) (-1) 1,
    -- 3781: l1new_bb += einsum("ijka,jkab->bi", x299, x300) * -1
    .add 85 (.ein [(96, [0, 1, 2, 3]), (574, [1, 2, 3, 4])] [4, 0]) (-1) 1,
    -- 3782: del x299
    .del 96,
    -- 3783: del x300
    .del 574,
    -- 3784: x301 += einsum("ai,jkba->jikb", l1.bb, t2.abab) * -1
    .add 89 (.ein [(44, [0, 1]), (9, [2, 3, 4, 0])] [2, 1, 3, 4]) (-1) 1,
    -- 3785: l1new_bb += einsum("iajb,ikja->bk", v.aabb.ovov, x301)
    .add 85 (.ein [(14, [0, 1, 2, 3]), (89, [0, 4, 2, 1])] [3, 4]) 1 1,
    -- 3786: del x301
    .del 89,
    -- 3787: x304 = np.zeros((nocc[1], nvir[1], nvir[1], nvir[1]), dtype=types[float])
    .zeros 575 [4, 5, 5, 5],
    -- 3788: x304 += einsum("iabc->ibac", v.bbbb.ovvv)
    .add 575 (.ein [(43, [0, 1, 2, 3])] [0, 2, 1, 3]) 1 1,
    -- 3789: x304 += einsum("iabc->ibca", v.bbbb.ovvv) * -1
    .add 575 (.ein [(43, [0, 1, 2, 3])] [0, 2, 3, 1]) (-1) 1,
    -- 3790: x517 = np.zeros((nocc[1], nocc[1], nvir[1], nvir[1]), dtype=types[float])
    .zeros 576 [4, 4, 5, 5],
    -- 3791: x517 += einsum("ia,jbac->ijbc", t1.bb, x304)
    .add 576 (.ein [(12, [0, 1]), (575, [2, 3, 1, 4])] [0, 2, 3, 4]) 1 1,
    -- 3792: x518 += einsum("ijab->jiab", x517) * -1
    .add 410 (.ein [(576, [0, 1, 2, 3])] [1, 0, 2, 3]) (-1) 1,
    -- 3793: del x517
    .del 576,
    -- 3794: l1new_bb += einsum("ijab,jabc->ci", x303, x304)
    .add 85 (.ein [(468, [0, 1, 2, 3]), (575, [1, 2, 3, 4])] [4, 0]) 1 1,
    -- 3795: del x304
    .del 575,
    -- 3796: del x303
    .del 468,
    -- 3797: x305 = np.zeros((nocc[1], nvir[1], nvir[1], nvir[1]), dtype=types[float])
    .zeros 577 [4, 5, 5, 5],
    -- 3798: x305 += einsum("ia,bacd->icbd", t1.bb, v.bbbb.vvvv)
    .add 577 (.ein [(12, [0, 1]), (70, [2, 1, 3, 4])] [0, 3, 2, 4]) 1 1,
    -- 3799: x306 = np.zeros((nocc[1], nvir[1], nvir[1], nvir[1]), dtype=types[float])
    .zeros 578 [4, 5, 5, 5],
    -- 3800: x306 += einsum("iabc->iabc", x305) * -1
    .add 578 (.ein [(577, [0, 1, 2, 3])] [0, 1, 2, 3]) (-1) 1,
    -- 3801: del x305
    .del 577,
    -- 3802: x306 += einsum("aibc->iabc", v.bbbb.vovv)
    .add 578 (.ein [(71, [0, 1, 2, 3])] [1, 0, 2, 3]) 1 1,
    -- 3803: x307 = np.zeros((nocc[1], nvir[1], nvir[1], nvir[1]), dtype=types[float])
    .zeros 579 [4, 5, 5, 5],
    -- 3804: x307 += einsum("iabc->iabc", x306) * -1
    .add 579 (.ein [(578, [0, 1, 2, 3])] [0, 1, 2, 3]) (-1) 1,
    -- 3805: x307 += einsum("iabc->ibac", x306)
    .add 579 (.ein [(578, [0, 1, 2, 3])] [0, 2, 1, 3]) 1 1,
    -- 3806: del x306
    .del 578,
    -- 3807: l1new_bb += einsum("abij,iabc->cj", l2.bbbb, x307) * -1
    .add 85 (.ein [(35, [0, 1, 2, 3]), (579, [2, 0, 1, 4])] [4, 3]) (-1) 1,
    -- 3808: del x307
    .del 579,
    -- 3809: x308 = np.zeros((nocc[1], nocc[1], nocc[1], nocc[1]), dtype=types[float])
    .zeros 580 [4, 4, 4, 4],
    -- 3810: x308 += einsum("abij,klba->ijlk", l2.bbbb, t2.bbbb)
    .add 580 (.ein [(35, [0, 1, 2, 3]), (34, [4, 5, 1, 0])] [2, 3, 5, 4]) 1 1,
    -- 3811: x310 += einsum("ijkl->jilk", x308)
    .add 471 (.ein [(580, [0, 1, 2, 3])] [1, 0, 3, 2]) 1 1,
    -- 3812: x311 = np.zeros((nocc[1], nocc[1], nocc[1], nvir[1]), dtype=types[float])
    .zeros 581 [4, 4, 4, 5],
    -- 3813: x311 += einsum("ia,ijkl->jkla", t1.bb, x310)
    .add 581 (.ein [(12, [0, 1]), (471, [0, 2, 3, 4])] [2, 3, 4, 1]) 1 1,
    -- 3814: del x310
    .del 471,
    -- 3815: x312 = np.zeros((nocc[1], nocc[1], nocc[1], nvir[1]), dtype=types[float])
    .zeros 582 [4, 4, 4, 5],
    -- 3816: x312 += einsum("ijka->ijka", x311)
    .add 582 (.ein [(581, [0, 1, 2, 3])] [0, 1, 2, 3]) 1 1,
    -- 3817: x312 += einsum("ijka->ikja", x311) * -1
    .add 582 (.ein [(581, [0, 1, 2, 3])] [0, 2, 1, 3]) (-1) 1,
    -- 3818: del x311
    .del 581,
    -- 3819: l1new_bb += einsum("iajb,kijb->ak", v.bbbb.ovov, x312) * -1
    .add 85 (.ein [(53, [0, 1, 2, 3]), (582, [4, 0, 2, 3])] [1, 4]) (-1) 1,
    -- 3820: del x312
    .del 582,
    -- 3821: x322 = np.zeros((nocc[1], nocc[1], nocc[1], nocc[1]), dtype=types[float])
    .zeros 583 [4, 4, 4, 4],
    -- 3822: x322 += einsum("ijkl->jikl", x308) * -1
    .add 583 (.ein [(580, [0, 1, 2, 3])] [1, 0, 2, 3]) (-1) 1,
    -- 3823: x322 += einsum("ijkl->jilk", x308)
    .add 583 (.ein [(580, [0, 1, 2, 3])] [1, 0, 3, 2]) 1 1,
    -- 3824: l1new_bb += einsum("ijka,jlik->al", v.bbbb.ooov, x322)
    .add 85 (.ein [(59, [0, 1, 2, 3]), (583, [1, 4, 0, 2])] [3, 4]) 1 1,
    -- 3825: del x322
    .del 583,
    -- 3826: x497 += einsum("ijkl->jilk", x308)
    .add 473 (.ein [(580, [0, 1, 2, 3])] [1, 0, 3, 2]) 1 1,
    -- 3827: del x308
    .del 580,
    -- 3828: x498 = np.zeros((nocc[1], nocc[1], nvir[1], nvir[1]), dtype=types[float])
    .zeros 584 [4, 4, 5, 5],
    -- 3829: x498 += einsum("iajb,klji->klab", v.bbbb.ovov, x497)
    .add 584 (.ein [(53, [0, 1, 2, 3]), (473, [4, 5, 2, 0])] [4, 5, 1, 3]) 1 1,
    -- 3830: del x497
    .del 473,
    -- 3831: x499 += einsum("ijab->jiab", x498)
    .add 555 (.ein [(584, [0, 1, 2, 3])] [1, 0, 2, 3]) 1 1,
    -- 3832: del x498
    .del 584,
    -- 3833: l2new_bbbb = np.zeros((nvir[1], nvir[1], nocc[1], nocc[1]), dtype=types[float])
    .zeros 585 [5, 5, 4, 4],
    -- 3834: l2new_bbbb += einsum("ijab->abij", x499)
    .add 585 (.ein [(555, [0, 1, 2, 3])] [2, 3, 0, 1]) 1 1,
    -- 3835: l2new_bbbb += einsum("ijab->baij", x499) * -1
    .add 585 (.ein [(555, [0, 1, 2, 3])] [3, 2, 0, 1]) (-1) 1,
    -- 3836: del x499
    .del 555,
    -- 3837: x313 = np.zeros((nocc[0], nvir[0], nvir[1], nvir[1]), dtype=types[float])
    .zeros 586 [0, 1, 5, 5],
    -- 3838: x313 += einsum("aibc->iabc", v.aabb.vovv)
    .add 586 (.ein [(72, [0, 1, 2, 3])] [1, 0, 2, 3]) 1 1,
    -- 3839: x313 += einsum("ia,bacd->ibcd", t1.aa, v.aabb.vvvv)
    .add 586 (.ein [(13, [0, 1]), (48, [2, 1, 3, 4])] [0, 2, 3, 4]) 1 1,
    -- 3840: l1new_bb += einsum("abij,iabc->cj", l2.abab, x313)
    .add 85 (.ein [(8, [0, 1, 2, 3]), (586, [2, 0, 1, 4])] [4, 3]) 1 1,
    -- 3841: del x313
    .del 586,
    -- 3842: x314 = np.zeros((nbos, nocc[1], nvir[1]), dtype=types[float])
    .zeros 587 [2, 4, 5],
    -- 3843: x314 += einsum("wx,xia->wia", s2, g.bb.bov)
    .add 587 (.ein [(49, [0, 1]), (6, [1, 2, 3])] [0, 2, 3]) 1 1,
    -- 3844: x316 += einsum("wia->wia", x314)
    .add 323 (.ein [(587, [0, 1, 2])] [0, 1, 2]) 1 1,
    -- 3845: x555 += einsum("wia->wia", x314)
    .add 508 (.ein [(587, [0, 1, 2])] [0, 1, 2]) 1 1,
    -- 3846: del x314
    .del 587,
    -- 3847: x316 += einsum("wia->wia", gc.bb.bov)
    .add 323 (.ein [(78, [0, 1, 2])] [0, 1, 2]) 1 1,
    -- 3848: x317 += einsum("wia,xja->wxji", u11.bb, x316)
    .add 215 (.ein [(50, [0, 1, 2]), (323, [3, 4, 2])] [0, 3, 4, 1]) 1 1,
    -- 3849: l1new_bb += einsum("wxai,wxji->aj", lu12.bb, x317) * -1
    .add 85 (.ein [(36, [0, 1, 2, 3]), (215, [0, 1, 4, 3])] [2, 4]) (-1) 1,
    -- 3850: del x317
    .del 215,
    -- 3851: x571 += einsum("wia,ijba->wjb", x316, x52) * -1
    .add 286 (.ein [(323, [0, 1, 2]), (236, [1, 3, 4, 2])] [0, 3, 4]) (-1) 1,
    -- 3852: del x52
    .del 236,
    -- 3853: x575 += einsum("wia,jiba->wjb", x316, t2.abab) * -1
    .add 178 (.ein [(323, [0, 1, 2]), (9, [3, 1, 4, 2])] [0, 3, 4]) (-1) 1,
    -- 3854: del x316
    .del 323,
    -- 3855: x318 = np.zeros((nocc[1], nocc[1], nocc[1], nvir[1]), dtype=types[float])
    .zeros 588 [4, 4, 4, 5],
    -- 3856: x318 += einsum("ai,jkba->ijkb", l1.bb, t2.bbbb)
    .add 588 (.ein [(44, [0, 1]), (34, [2, 3, 4, 0])] [1, 2, 3, 4]) 1 1,
    -- 3857: x319 = np.zeros((nocc[1], nocc[1], nocc[1], nvir[1]), dtype=types[float])
    .zeros 589 [4, 4, 4, 5],
    -- 3858: x319 += einsum("ijka->ikja", x318)
    .add 589 (.ein [(588, [0, 1, 2, 3])] [0, 2, 1, 3]) 1 1,
    -- 3859: x319 += einsum("ijka->ijka", x318) * -1
    .add 589 (.ein [(588, [0, 1, 2, 3])] [0, 1, 2, 3]) (-1) 1,
    -- 3860: del x318
    .del 588,
    -- 3861: l1new_bb += einsum("iajb,kija->bk", v.bbbb.ovov, x319)
    .add 85 (.ein [(53, [0, 1, 2, 3]), (589, [4, 0, 2, 1])] [3, 4]) 1 1,
    -- 3862: del x319
    .del 589,
    -- 3863: x320 = np.zeros((nocc[0], nocc[1], nvir[0], nvir[1]), dtype=types[float])
    .zeros 590 [0, 4, 1, 5],
    -- 3864: x320 += einsum("ia,jbca->ijcb", t1.aa, v.bbaa.ovvv)
    .add 590 (.ein [(13, [0, 1]), (15, [2, 3, 4, 1])] [0, 2, 4, 3]) 1 1,
    -- 3865: x321 = np.zeros((nocc[0], nocc[1], nvir[0], nvir[1]), dtype=types[float])
    .zeros 591 [0, 4, 1, 5],
    -- 3866: x321 += einsum("ijab->ijab", x320)
    .add 591 (.ein [(590, [0, 1, 2, 3])] [0, 1, 2, 3]) 1 1,
    -- 3867: x436 = np.zeros((nocc[0], nocc[1], nvir[0], nvir[1]), dtype=types[float])
    .zeros 592 [0, 4, 1, 5],
    -- 3868: x436 += einsum("ijab->ijab", x320)
    .add 592 (.ein [(590, [0, 1, 2, 3])] [0, 1, 2, 3]) 1 1,
    -- 3869: x507 += einsum("ijab->ijab", x320)
    .add 301 (.ein [(590, [0, 1, 2, 3])] [0, 1, 2, 3]) 1 1,
    -- 3870: x632 = np.zeros((nocc[0], nocc[1], nvir[0], nvir[1]), dtype=types[float])
    .zeros 593 [0, 4, 1, 5],
    -- 3871: x632 += einsum("ijab->ijab", x320)
    .add 593 (.ein [(590, [0, 1, 2, 3])] [0, 1, 2, 3]) 1 1,
    -- 3872: del x320
    .del 590,
    -- 3873: x321 += einsum("iabj->jiba", v.bbaa.ovvo)
    .add 591 (.ein [(52, [0, 1, 2, 3])] [3, 0, 2, 1]) 1 1,
    -- 3874: l1new_bb += einsum("ijka,ikab->bj", x1, x321) * -1
    .add 85 (.ein [(86, [0, 1, 2, 3]), (591, [0, 2, 3, 4])] [4, 1]) (-1) 1,
    -- 3875: del x321
    .del 591,
    -- 3876: x326 = np.zeros((nbos, nocc[1], nocc[1]), dtype=types[float])
    .zeros 594 [2, 4, 4],
    -- 3877: x326 += einsum("wia,wxja->xij", g.bb.bov, u12.bb)
    .add 594 (.ein [(6, [0, 1, 2]), (29, [0, 3, 4, 2])] [3, 1, 4]) 1 1,
    -- 3878: x333 += einsum("wij->wij", x326)
    .add 337 (.ein [(594, [0, 1, 2])] [0, 1, 2]) 1 1,
    -- 3879: del x326
    .del 594,
    -- 3880: x327 = np.zeros((nbos, nocc[1], nocc[1]), dtype=types[float])
    .zeros 595 [2, 4, 4],
    -- 3881: x327 += einsum("wia,iajk->wjk", u11.aa, v.aabb.ovoo)
    .add 595 (.ein [(24, [0, 1, 2]), (10, [1, 2, 3, 4])] [0, 3, 4]) 1 1,
    -- 3882: x333 += einsum("wij->wij", x327)
    .add 337 (.ein [(595, [0, 1, 2])] [0, 1, 2]) 1 1,
    -- 3883: del x327
    .del 595,
    -- 3884: x330 += einsum("wia->wia", gc.bb.bov)
    .add 324 (.ein [(78, [0, 1, 2])] [0, 1, 2]) 1 1,
    -- 3885: x331 = np.zeros((nbos, nocc[1], nocc[1]), dtype=types[float])
    .zeros 596 [2, 4, 4],
    -- 3886: x331 += einsum("ia,wja->wij", t1.bb, x330)
    .add 596 (.ein [(12, [0, 1]), (324, [2, 3, 1])] [2, 0, 3]) 1 1,
    -- 3887: x333 += einsum("wij->wji", x331)
    .add 337 (.ein [(596, [0, 1, 2])] [0, 2, 1]) 1 1,
    -- 3888: del x331
    .del 596,
    -- 3889: l1new_bb += einsum("wia,wji->aj", x330, x343) * -1
    .add 85 (.ein [(324, [0, 1, 2]), (480, [0, 3, 1])] [2, 3]) (-1) 1,
    -- 3890: del x330
    .del 324,
    -- 3891: del x343
    .del 480,
    -- 3892: x333 += einsum("wij->wij", gc.bb.boo)
    .add 337 (.ein [(77, [0, 1, 2])] [0, 1, 2]) 1 1,
    -- 3893: x571 += einsum("ia,wij->wja", t1.bb, x333)
    .add 286 (.ein [(12, [0, 1]), (337, [2, 0, 3])] [2, 3, 1]) 1 1,
    -- 3894: l1new_bb += einsum("wai,wji->aj", lu11.bb, x333) * -1
    .add 85 (.ein [(65, [0, 1, 2]), (337, [0, 3, 2])] [1, 3]) (-1) 1,
    -- 3895: del x333
    .del 337,
    -- 3896: x335 = np.zeros((nbos, nocc[1], nvir[1]), dtype=types[float])
    .zeros 597 [2, 4, 5],
    -- 3897: x335 += einsum("wx,wai->xia", s2, lu11.bb)
    .add 597 (.ein [(49, [0, 1]), (65, [0, 2, 3])] [1, 3, 2]) 1 1,
    -- 3898: x339 = np.zeros((nbos, nocc[1], nvir[1]), dtype=types[float])
    .zeros 598 [2, 4, 5],
    -- 3899: x339 += einsum("wia->wia", x335)
    .add 598 (.ein [(597, [0, 1, 2])] [0, 1, 2]) 1 1,
    -- 3900: del x335
    .del 597,
    -- 3901: x336 = np.zeros((nbos, nocc[1], nvir[1]), dtype=types[float])
    .zeros 599 [2, 4, 5],
    -- 3902: x336 += einsum("wia,abij->wjb", u11.aa, l2.abab)
    .add 599 (.ein [(24, [0, 1, 2]), (8, [2, 3, 1, 4])] [0, 4, 3]) 1 1,
    -- 3903: x339 += einsum("wia->wia", x336)
    .add 598 (.ein [(599, [0, 1, 2])] [0, 1, 2]) 1 1,
    -- 3904: x344 += einsum("wia->wia", x336)
    .add 567 (.ein [(599, [0, 1, 2])] [0, 1, 2]) 1 1,
    -- 3905: x345 += einsum("ia,wja->wji", t1.bb, x344)
    .add 483 (.ein [(12, [0, 1]), (567, [2, 3, 1])] [2, 3, 0]) 1 1,
    -- 3906: del x344
    .del 567,
    -- 3907: x346 = np.zeros((nbos, nocc[1], nvir[1]), dtype=types[float])
    .zeros 600 [2, 4, 5],
    -- 3908: x346 += einsum("wia->wia", x336)
    .add 600 (.ein [(599, [0, 1, 2])] [0, 1, 2]) 1 1,
    -- 3909: del x336
    .del 599,
    -- 3910: x337 = np.zeros((nocc[1], nocc[1], nvir[1], nvir[1]), dtype=types[float])
    .zeros 601 [4, 4, 5, 5],
    -- 3911: x337 -= einsum("abij->jiab", l2.bbbb)
    .add 601 (.ein [(35, [0, 1, 2, 3])] [3, 2, 0, 1]) (-1) 1,
    -- 3912: x337 += einsum("abij->jiba", l2.bbbb)
    .add 601 (.ein [(35, [0, 1, 2, 3])] [3, 2, 1, 0]) 1 1,
    -- 3913: x338 = np.zeros((nbos, nocc[1], nvir[1]), dtype=types[float])
    .zeros 602 [2, 4, 5],
    -- 3914: x338 += einsum("wia,ijba->wjb", u11.bb, x337)
    .add 602 (.ein [(50, [0, 1, 2]), (601, [1, 3, 4, 2])] [0, 3, 4]) 1 1,
    -- 3915: x339 -= einsum("wia->wia", x338)
    .add 598 (.ein [(602, [0, 1, 2])] [0, 1, 2]) (-1) 1,
    -- 3916: x455 = np.zeros((nocc[1], nocc[1], nvir[1], nvir[1]), dtype=types[float])
    .zeros 603 [4, 4, 5, 5],
    -- 3917: x455 += einsum("wia,wjb->ijab", g.bb.bov, x339)
    .add 603 (.ein [(6, [0, 1, 2]), (598, [0, 3, 4])] [1, 3, 2, 4]) 1 1,
    -- 3918: x467 += einsum("ijab->ijab", x455)
    .add 249 (.ein [(603, [0, 1, 2, 3])] [0, 1, 2, 3]) 1 1,
    -- 3919: del x455
    .del 603,
    -- 3920: l1new_bb += einsum("wab,wia->bi", g.bb.bvv, x339)
    .add 85 (.ein [(7, [0, 1, 2]), (598, [0, 3, 1])] [2, 3]) 1 1,
    -- 3921: del x339
    .del 598,
    -- 3922: x346 -= einsum("wia->wia", x338)
    .add 600 (.ein [(602, [0, 1, 2])] [0, 1, 2]) (-1) 1,
    -- 3923: del x338
    .del 602,
    -- 3924: x557 = np.zeros((nocc[0], nocc[1], nvir[0], nvir[1]), dtype=types[float])
    .zeros 604 [0, 4, 1, 5],
    -- 3925: x557 += einsum("wia,wjb->ijab", g.aa.bov, x346)
    .add 604 (.ein [(2, [0, 1, 2]), (600, [0, 3, 4])] [1, 3, 2, 4]) 1 1,
    -- 3926: l2new_baba += einsum("ijab->baji", x557)
    .add 91 (.ein [(604, [0, 1, 2, 3])] [3, 2, 1, 0]) 1 1,
    -- 3927: l2new_abab += einsum("ijab->abij", x557)
    .add 92 (.ein [(604, [0, 1, 2, 3])] [2, 3, 0, 1]) 1 1,
    -- 3928: del x557
    .del 604,
    -- 3929: l1new_bb += einsum("wij,wja->ai", x139, x346) * -1
    .add 85 (.ein [(395, [0, 1, 2]), (600, [0, 2, 3])] [3, 1]) (-1) 1,
    -- 3930: del x346
    .del 600,
    -- 3931: del x139
    .del 395,
    -- 3932: lu11new_bb -= einsum("wai,ijba->wbj", g.bb.bvo, x337)
    .add 339 (.ein [(5, [0, 1, 2]), (601, [2, 3, 4, 1])] [0, 4, 3]) (-1) 1,
    -- 3933: x340 = np.zeros((nbos, nvir[1], nvir[1]), dtype=types[float])
    .zeros 605 [2, 5, 5],
    -- 3934: x340 += einsum("wia,iabc->wbc", u11.aa, v.aabb.ovvv)
    .add 605 (.ein [(24, [0, 1, 2]), (17, [1, 2, 3, 4])] [0, 3, 4]) 1 1,
    -- 3935: x342 = np.zeros((nbos, nvir[1], nvir[1]), dtype=types[float])
    .zeros 606 [2, 5, 5],
    -- 3936: x342 += einsum("wab->wab", x340)
    .add 606 (.ein [(605, [0, 1, 2])] [0, 1, 2]) 1 1,
    -- 3937: x568 += einsum("wab->wab", x340)
    .add 425 (.ein [(605, [0, 1, 2])] [0, 1, 2]) 1 1,
    -- 3938: del x340
    .del 605,
    -- 3939: x341 = np.zeros((nocc[1], nvir[1], nvir[1], nvir[1]), dtype=types[float])
    .zeros 607 [4, 5, 5, 5],
    -- 3940: x341 -= einsum("iabc->ibac", v.bbbb.ovvv)
    .add 607 (.ein [(43, [0, 1, 2, 3])] [0, 2, 1, 3]) (-1) 1,
    -- 3941: x341 += einsum("iabc->ibca", v.bbbb.ovvv)
    .add 607 (.ein [(43, [0, 1, 2, 3])] [0, 2, 3, 1]) 1 1,
    -- 3942: x342 -= einsum("wia,ibac->wbc", u11.bb, x341)
    .add 606 (.ein [(50, [0, 1, 2]), (607, [1, 3, 2, 4])] [0, 3, 4]) (-1) 1,
    -- 3943: x444 = np.zeros((nvir[1], nvir[1]), dtype=types[float])
    .zeros 608 [5, 5],
    -- 3944: x444 += einsum("ia,ibac->bc", t1.bb, x341)
    .add 608 (.ein [(12, [0, 1]), (607, [0, 2, 1, 3])] [2, 3]) 1 1,
    -- 3945: del x341
    .del 607,
    -- 3946: x445 -= einsum("ab->ab", x444)
    .add 422 (.ein [(608, [0, 1])] [0, 1]) (-1) 1,
    -- 3947: del x444
    .del 608,
    -- 3948: x446 = np.zeros((nocc[1], nocc[1], nvir[1], nvir[1]), dtype=types[float])
    .zeros 609 [4, 4, 5, 5],
    -- 3949: x446 += einsum("ab,acij->ijcb", x445, l2.bbbb)
    .add 609 (.ein [(422, [0, 1]), (35, [0, 2, 3, 4])] [3, 4, 2, 1]) 1 1,
    -- 3950: del x445
    .del 422,
    -- 3951: x467 += einsum("ijab->jiab", x446)
    .add 249 (.ein [(609, [0, 1, 2, 3])] [1, 0, 2, 3]) 1 1,
    -- 3952: del x446
    .del 609,
    -- 3953: x342 += einsum("wab->wab", gc.bb.bvv)
    .add 606 (.ein [(80, [0, 1, 2])] [0, 1, 2]) 1 1,
    -- 3954: l1new_bb += einsum("wai,wab->bi", lu11.bb, x342)
    .add 85 (.ein [(65, [0, 1, 2]), (606, [0, 1, 3])] [3, 2]) 1 1,
    -- 3955: del x342
    .del 606,
    -- 3956: x345 += einsum("ai,wja->wij", l1.bb, u11.bb)
    .add 483 (.ein [(44, [0, 1]), (50, [2, 3, 0])] [2, 1, 3]) 1 1,
    -- 3957: x345 += einsum("wai,wxja->xij", lu11.bb, u12.bb)
    .add 483 (.ein [(65, [0, 1, 2]), (29, [0, 3, 4, 1])] [3, 2, 4]) 1 1,
    -- 3958: l1new_bb += einsum("wia,wji->aj", g.bb.bov, x345) * -1
    .add 85 (.ein [(6, [0, 1, 2]), (483, [0, 3, 1])] [2, 3]) (-1) 1,
    -- 3959: del x345
    .del 483,
    -- 3960: x347 = np.zeros((nocc[1], nocc[1], nvir[1], nvir[1]), dtype=types[float])
    .zeros 610 [4, 4, 5, 5],
    -- 3961: x347 += einsum("iabj->ijba", v.bbbb.ovvo)
    .add 610 (.ein [(60, [0, 1, 2, 3])] [0, 3, 2, 1]) 1 1,
    -- 3962: x347 -= einsum("ijab->ijab", v.bbbb.oovv)
    .add 610 (.ein [(61, [0, 1, 2, 3])] [0, 1, 2, 3]) (-1) 1,
    -- 3963: l1new_bb += einsum("ai,jiab->bj", l1.bb, x347)
    .add 85 (.ein [(44, [0, 1]), (610, [2, 1, 0, 3])] [3, 2]) 1 1,
    -- 3964: lu11new_bb += einsum("wai,jiab->wbj", lu11.bb, x347)
    .add 339 (.ein [(65, [0, 1, 2]), (610, [3, 2, 1, 4])] [0, 4, 3]) 1 1,
    -- 3965: del x347
    .del 610,
    -- 3966: x348 = np.zeros((nocc[0], nocc[0], nvir[0], nvir[0]), dtype=types[float])
    .zeros 611 [0, 0, 1, 1],
    -- 3967: x348 += einsum("wia,wbj->ijab", gc.aa.bov, lu11.aa)
    .add 611 (.ein [(74, [0, 1, 2]), (51, [0, 3, 4])] [1, 4, 2, 3]) 1 1,
    -- 3968: x390 += einsum("ijab->ijab", x348)
    .add 98 (.ein [(611, [0, 1, 2, 3])] [0, 1, 2, 3]) 1 1,
    -- 3969: del x348
    .del 611,
    -- 3970: x349 = np.zeros((nocc[0], nocc[0], nvir[0], nvir[0]), dtype=types[float])
    .zeros 612 [0, 0, 1, 1],
    -- 3971: x349 += einsum("ai,jbac->ijbc", l1.aa, v.aaaa.ovvv)
    .add 612 (.ein [(28, [0, 1]), (22, [2, 3, 0, 4])] [1, 2, 3, 4]) 1 1,
    -- 3972: x390 -= einsum("ijab->ijab", x349)
    .add 98 (.ein [(612, [0, 1, 2, 3])] [0, 1, 2, 3]) (-1) 1,
    -- 3973: del x349
    .del 612,
    -- 3974: x355 = np.zeros((nocc[0], nocc[0], nvir[0], nvir[0]), dtype=types[float])
    .zeros 613 [0, 0, 1, 1],
    -- 3975: x355 -= einsum("abij->jiab", l2.aaaa)
    .add 613 (.ein [(26, [0, 1, 2, 3])] [3, 2, 0, 1]) (-1) 1,
    -- 3976: x355 += einsum("abij->jiba", l2.aaaa)
    .add 613 (.ein [(26, [0, 1, 2, 3])] [3, 2, 1, 0]) 1 1,
    -- 3977: x357 += einsum("iabj->jiba", v.aaaa.ovvo)
    .add 529 (.ein [(30, [0, 1, 2, 3])] [3, 0, 2, 1]) 1 1,
    -- 3978: x357 -= einsum("ijab->jiab", v.aaaa.oovv)
    .add 529 (.ein [(31, [0, 1, 2, 3])] [1, 0, 2, 3]) (-1) 1,
    -- 3979: x358 = np.zeros((nocc[0], nocc[0], nvir[0], nvir[0]), dtype=types[float])
    .zeros 614 [0, 0, 1, 1],
    -- 3980: x358 += einsum("ijab,ikac->jkbc", x355, x357)
    .add 614 (.ein [(613, [0, 1, 2, 3]), (529, [0, 4, 2, 5])] [1, 4, 3, 5]) 1 1,
    -- 3981: del x355
    .del 613,
    -- 3982: del x357
    .del 529,
    -- 3983: x390 += einsum("ijab->ijab", x358)
    .add 98 (.ein [(614, [0, 1, 2, 3])] [0, 1, 2, 3]) 1 1,
    -- 3984: del x358
    .del 614,
    -- 3985: x359 = np.zeros((nocc[1], nocc[1], nvir[1], nvir[1]), dtype=types[float])
    .zeros 615 [4, 4, 5, 5],
    -- 3986: x359 -= einsum("ijab->jiab", t2.bbbb)
    .add 615 (.ein [(34, [0, 1, 2, 3])] [1, 0, 2, 3]) (-1) 1,
    -- 3987: x359 += einsum("ijab->jiba", t2.bbbb)
    .add 615 (.ein [(34, [0, 1, 2, 3])] [1, 0, 3, 2]) 1 1,
    -- 3988: x360 = np.zeros((nocc[0], nocc[1], nvir[0], nvir[1]), dtype=types[float])
    .zeros 616 [0, 4, 1, 5],
    -- 3989: x360 += einsum("iajb,jkcb->ikac", v.aabb.ovov, x359)
    .add 616 (.ein [(14, [0, 1, 2, 3]), (615, [2, 4, 5, 3])] [0, 4, 1, 5]) 1 1,
    -- 3990: x361 -= einsum("ijab->ijab", x360)
    .add 234 (.ein [(616, [0, 1, 2, 3])] [0, 1, 2, 3]) (-1) 1,
    -- 3991: del x360
    .del 616,
    -- 3992: x595 = np.zeros((nbos, nocc[1], nvir[1]), dtype=types[float])
    .zeros 617 [2, 4, 5],
    -- 3993: x595 += einsum("wia,ijba->wjb", g.bb.bov, x359)
    .add 617 (.ein [(6, [0, 1, 2]), (615, [1, 3, 4, 2])] [0, 3, 4]) 1 1,
    -- 3994: del x359
    .del 615,
    -- 3995: x596 = np.zeros((nbos, nocc[1], nvir[1]), dtype=types[float])
    .zeros 618 [2, 4, 5],
    -- 3996: x596 -= einsum("wia->wia", x595)
    .add 618 (.ein [(617, [0, 1, 2])] [0, 1, 2]) (-1) 1,
    -- 3997: del x595
    .del 617,
    -- 3998: x361 += einsum("iabj->ijab", v.aabb.ovvo)
    .add 234 (.ein [(40, [0, 1, 2, 3])] [0, 3, 1, 2]) 1 1,
    -- 3999: x362 = np.zeros((nocc[0], nocc[0], nvir[0], nvir[0]), dtype=types[float])
    .zeros 619 [0, 0, 1, 1],
    -- 4000: x362 += einsum("abij,kjcb->ikac", l2.abab, x361)
    .add 619 (.ein [(8, [0, 1, 2, 3]), (234, [4, 3, 5, 1])] [2, 4, 0, 5]) 1 1,
    -- 4001: del x361
    .del 234,
    -- 4002: x390 += einsum("ijab->ijab", x362)
    .add 98 (.ein [(619, [0, 1, 2, 3])] [0, 1, 2, 3]) 1 1,
    -- 4003: del x362
    .del 619,
    -- 4004: x364 = np.zeros((nocc[0], nocc[0], nocc[0], nvir[0]), dtype=types[float])
    .zeros 620 [0, 0, 0, 1],
    -- 4005: x364 += einsum("ijka->ikja", v.aaaa.ooov)
    .add 620 (.ein [(27, [0, 1, 2, 3])] [0, 2, 1, 3]) 1 1,
    -- 4006: x364 -= einsum("ijka->kija", v.aaaa.ooov)
    .add 620 (.ein [(27, [0, 1, 2, 3])] [2, 0, 1, 3]) (-1) 1,
    -- 4007: x365 = np.zeros((nocc[0], nocc[0], nvir[0], nvir[0]), dtype=types[float])
    .zeros 621 [0, 0, 1, 1],
    -- 4008: x365 += einsum("ijka,lkib->jlab", x363, x364)
    .add 621 (.ein [(265, [0, 1, 2, 3]), (620, [4, 2, 0, 5])] [1, 4, 3, 5]) 1 1,
    -- 4009: del x363
    .del 265,
    -- 4010: x390 += einsum("ijab->ijab", x365)
    .add 98 (.ein [(621, [0, 1, 2, 3])] [0, 1, 2, 3]) 1 1,
    -- 4011: del x365
    .del 621,
    -- 4012: l2new_abab += einsum("ijka,kjlb->abil", x364, x55)
    .add 92 (.ein [(620, [0, 1, 2, 3]), (246, [2, 1, 4, 5])] [3, 5, 0, 4]) 1 1,
    -- 4013: del x364
    .del 620,
    -- 4014: x366 = np.zeros((nvir[0], nvir[0]), dtype=types[float])
    .zeros 622 [1, 1],
    -- 4015: x366 += einsum("wia,wib->ab", g.aa.bov, u11.aa)
    .add 622 (.ein [(2, [0, 1, 2]), (24, [0, 1, 3])] [2, 3]) 1 1,
    -- 4016: x367 -= einsum("ab->ba", x366)
    .add 359 (.ein [(622, [0, 1])] [1, 0]) (-1) 1,
    -- 4017: x543 += einsum("ab->ba", x366) * -1
    .add 303 (.ein [(622, [0, 1])] [1, 0]) (-1) 1,
    -- 4018: del x366
    .del 622,
    -- 4019: x367 += einsum("ab->ab", f.aa.vv)
    .add 359 (.ein [(56, [0, 1])] [0, 1]) 1 1,
    -- 4020: x368 = np.zeros((nocc[0], nocc[0], nvir[0], nvir[0]), dtype=types[float])
    .zeros 623 [0, 0, 1, 1],
    -- 4021: x368 += einsum("ab,acij->ijcb", x367, l2.aaaa)
    .add 623 (.ein [(359, [0, 1]), (26, [0, 2, 3, 4])] [3, 4, 2, 1]) 1 1,
    -- 4022: del x367
    .del 359,
    -- 4023: x390 -= einsum("ijab->jiba", x368)
    .add 98 (.ein [(623, [0, 1, 2, 3])] [1, 0, 3, 2]) (-1) 1,
    -- 4024: del x368
    .del 623,
    -- 4025: x372 += einsum("ia->ia", f.aa.ov)
    .add 104 (.ein [(19, [0, 1])] [0, 1]) 1 1,
    -- 4026: x373 = np.zeros((nocc[0], nocc[0]), dtype=types[float])
    .zeros 624 [0, 0],
    -- 4027: x373 += einsum("ia,ja->ij", t1.aa, x372)
    .add 624 (.ein [(13, [0, 1]), (104, [2, 1])] [0, 2]) 1 1,
    -- 4028: x374 += einsum("ij->ji", x373)
    .add 346 (.ein [(624, [0, 1])] [1, 0]) 1 1,
    -- 4029: del x373
    .del 624,
    -- 4030: x385 = np.zeros((nocc[0], nocc[0], nvir[0], nvir[0]), dtype=types[float])
    .zeros 625 [0, 0, 1, 1],
    -- 4031: x385 += einsum("ia,jkib->jkba", x372, x56)
    .add 625 (.ein [(104, [0, 1]), (254, [2, 3, 0, 4])] [2, 3, 4, 1]) 1 1,
    -- 4032: del x56
    .del 254,
    -- 4033: x390 += einsum("ijab->ijba", x385)
    .add 98 (.ein [(625, [0, 1, 2, 3])] [0, 1, 3, 2]) 1 1,
    -- 4034: del x385
    .del 625,
    -- 4035: x390 += einsum("ai,jb->jiba", l1.aa, x372)
    .add 98 (.ein [(28, [0, 1]), (104, [2, 3])] [2, 1, 3, 0]) 1 1,
    -- 4036: del x372
    .del 104,
    -- 4037: x374 += einsum("ij->ij", f.aa.oo)
    .add 346 (.ein [(55, [0, 1])] [0, 1]) 1 1,
    -- 4038: x375 = np.zeros((nocc[0], nocc[0], nvir[0], nvir[0]), dtype=types[float])
    .zeros 626 [0, 0, 1, 1],
    -- 4039: x375 += einsum("ij,abjk->kiab", x374, l2.aaaa)
    .add 626 (.ein [(346, [0, 1]), (26, [2, 3, 1, 4])] [4, 0, 2, 3]) 1 1,
    -- 4040: del x374
    .del 346,
    -- 4041: x390 += einsum("ijab->jiba", x375)
    .add 98 (.ein [(626, [0, 1, 2, 3])] [1, 0, 3, 2]) 1 1,
    -- 4042: del x375
    .del 626,
    -- 4043: x376 = np.zeros((nocc[0], nocc[0], nocc[0], nvir[0]), dtype=types[float])
    .zeros 627 [0, 0, 0, 1],
    -- 4044: x376 -= einsum("ijka->ikja", v.aaaa.ooov)
    .add 627 (.ein [(27, [0, 1, 2, 3])] [0, 2, 1, 3]) (-1) 1,
    -- 4045: x376 += einsum("ijka->kija", v.aaaa.ooov)
    .add 627 (.ein [(27, [0, 1, 2, 3])] [2, 0, 1, 3]) 1 1,
    -- 4046: x377 = np.zeros((nocc[0], nocc[0]), dtype=types[float])
    .zeros 628 [0, 0],
    -- 4047: x377 += einsum("ia,jika->jk", t1.aa, x376)
    .add 628 (.ein [(13, [0, 1]), (627, [2, 0, 3, 1])] [2, 3]) 1 1,
    -- 4048: x378 -= einsum("ij->ij", x377)
    .add 349 (.ein [(628, [0, 1])] [0, 1]) (-1) 1,
    -- 4049: del x377
    .del 628,
    -- 4050: x379 = np.zeros((nocc[0], nocc[0], nvir[0], nvir[0]), dtype=types[float])
    .zeros 629 [0, 0, 1, 1],
    -- 4051: x379 += einsum("ij,abjk->kiab", x378, l2.aaaa)
    .add 629 (.ein [(349, [0, 1]), (26, [2, 3, 1, 4])] [4, 0, 2, 3]) 1 1,
    -- 4052: del x378
    .del 349,
    -- 4053: x390 -= einsum("ijab->ijba", x379)
    .add 98 (.ein [(629, [0, 1, 2, 3])] [0, 1, 3, 2]) (-1) 1,
    -- 4054: del x379
    .del 629,
    -- 4055: l2new_baba -= einsum("ijka,kjlb->bali", x376, x55)
    .add 91 (.ein [(627, [0, 1, 2, 3]), (246, [2, 1, 4, 5])] [5, 3, 4, 0]) (-1) 1,
    -- 4056: del x55
    .del 246,
    -- 4057: lu12new_aa -= einsum("ijka,wxkj->xwai", x376, x54)
    .add 227 (.ein [(627, [0, 1, 2, 3]), (239, [4, 5, 2, 1])] [5, 4, 3, 0]) (-1) 1,
    -- 4058: del x376
    .del 627,
    -- 4059: del x54
    .del 239,
    -- 4060: x386 -= einsum("ijka->jika", v.aaaa.ooov)
    .add 140 (.ein [(27, [0, 1, 2, 3])] [1, 0, 2, 3]) (-1) 1,
    -- 4061: x387 = np.zeros((nocc[0], nocc[0], nvir[0], nvir[0]), dtype=types[float])
    .zeros 630 [0, 0, 1, 1],
    -- 4062: x387 += einsum("ai,ijkb->jkab", l1.aa, x386)
    .add 630 (.ein [(28, [0, 1]), (140, [1, 2, 3, 4])] [2, 3, 0, 4]) 1 1,
    -- 4063: del x386
    .del 140,
    -- 4064: x390 += einsum("ijab->ijab", x387)
    .add 98 (.ein [(630, [0, 1, 2, 3])] [0, 1, 2, 3]) 1 1,
    -- 4065: del x387
    .del 630,
    -- 4066: l2new_aaaa += einsum("ijab->abij", x390)
    .add 281 (.ein [(98, [0, 1, 2, 3])] [2, 3, 0, 1]) 1 1,
    -- 4067: l2new_aaaa -= einsum("ijab->baij", x390)
    .add 281 (.ein [(98, [0, 1, 2, 3])] [3, 2, 0, 1]) (-1) 1,
    -- 4068: l2new_aaaa -= einsum("ijab->abji", x390)
    .add 281 (.ein [(98, [0, 1, 2, 3])] [2, 3, 1, 0]) (-1) 1,
    -- 4069: l2new_aaaa += einsum("ijab->baji", x390)
    .add 281 (.ein [(98, [0, 1, 2, 3])] [3, 2, 1, 0]) 1 1,
    -- 4070: del x390
    .del 98,
    -- 4071: x391 = np.zeros((nocc[0], nocc[0], nvir[0], nvir[0]), dtype=types[float])
    .zeros 631 [0, 0, 1, 1],
    -- 4072: x391 += einsum("ijab,kcjb->ikac", t2.abab, v.aabb.ovov)
    .add 631 (.ein [(9, [0, 1, 2, 3]), (14, [4, 5, 1, 3])] [0, 4, 2, 5]) 1 1,
    -- 4073: x393 += einsum("ijab->ijab", x391)
    .add 299 (.ein [(631, [0, 1, 2, 3])] [0, 1, 2, 3]) 1 1,
    -- 4074: x394 = np.zeros((nocc[0], nocc[0], nvir[0], nvir[0]), dtype=types[float])
    .zeros 632 [0, 0, 1, 1],
    -- 4075: x394 += einsum("ijab,ikac->jkbc", x34, x393)
    .add 632 (.ein [(185, [0, 1, 2, 3]), (299, [0, 4, 2, 5])] [1, 4, 3, 5]) 1 1,
    -- 4076: del x393
    .del 299,
    -- 4077: del x34
    .del 185,
    -- 4078: x414 += einsum("ijab->ijab", x394)
    .add 259 (.ein [(632, [0, 1, 2, 3])] [0, 1, 2, 3]) 1 1,
    -- 4079: del x394
    .del 632,
    -- 4080: x513 += einsum("ijab->jiab", x391)
    .add 188 (.ein [(631, [0, 1, 2, 3])] [1, 0, 2, 3]) 1 1,
    -- 4081: del x391
    .del 631,
    -- 4082: x398 = np.zeros((nbos, nbos, nocc[0], nvir[0]), dtype=types[float])
    .zeros 633 [2, 2, 0, 1],
    -- 4083: x398 += einsum("wxia,jbia->wxjb", u12.bb, v.aabb.ovov)
    .add 633 (.ein [(29, [0, 1, 2, 3]), (14, [4, 5, 2, 3])] [0, 1, 4, 5]) 1 1,
    -- 4084: x400 += einsum("wxia->xwia", x398)
    .add 126 (.ein [(633, [0, 1, 2, 3])] [1, 0, 2, 3]) 1 1,
    -- 4085: del x398
    .del 633,
    -- 4086: x401 = np.zeros((nocc[0], nocc[0], nvir[0], nvir[0]), dtype=types[float])
    .zeros 634 [0, 0, 1, 1],
    -- 4087: x401 += einsum("wxai,wxjb->ijab", lu12.aa, x400) * 0.5
    .add 634 (.ein [(33, [0, 1, 2, 3]), (126, [0, 1, 4, 5])] [3, 4, 2, 5]) 1 2,
    -- 4088: x414 += einsum("ijab->ijab", x401)
    .add 259 (.ein [(634, [0, 1, 2, 3])] [0, 1, 2, 3]) 1 1,
    -- 4089: del x401
    .del 634,
    -- 4090: x538 = np.zeros((nocc[0], nocc[1], nvir[0], nvir[1]), dtype=types[float])
    .zeros 635 [0, 4, 1, 5],
    -- 4091: x538 += einsum("wxai,wxjb->jiba", lu12.bb, x400) * 0.5
    .add 635 (.ein [(36, [0, 1, 2, 3]), (126, [0, 1, 4, 5])] [4, 3, 5, 2]) 1 2,
    -- 4092: del x400
    .del 126,
    -- 4093: l2new_baba += einsum("ijab->baji", x538)
    .add 91 (.ein [(635, [0, 1, 2, 3])] [3, 2, 1, 0]) 1 1,
    -- 4094: l2new_abab += einsum("ijab->abij", x538)
    .add 92 (.ein [(635, [0, 1, 2, 3])] [2, 3, 0, 1]) 1 1,
    -- 4095: del x538
    .del 635,
    -- 4096: x407 = np.zeros((nvir[0], nvir[0]), dtype=types[float])
    .zeros 636 [1, 1],
    -- 4097: x407 += einsum("ijab,icjb->ac", t2.abab, v.aabb.ovov)
    .add 636 (.ein [(9, [0, 1, 2, 3]), (14, [0, 4, 1, 3])] [2, 4]) 1 1,
    -- 4098: x409 += einsum("ab->ab", x407)
    .add 166 (.ein [(636, [0, 1])] [0, 1]) 1 1,
    -- 4099: x410 = np.zeros((nocc[0], nocc[0], nvir[0], nvir[0]), dtype=types[float])
    .zeros 637 [0, 0, 1, 1],
    -- 4100: x410 += einsum("ab,acij->ijcb", x409, l2.aaaa)
    .add 637 (.ein [(166, [0, 1]), (26, [0, 2, 3, 4])] [3, 4, 2, 1]) 1 1,
    -- 4101: del x409
    .del 166,
    -- 4102: x414 += einsum("ijab->jiab", x410) * -1
    .add 259 (.ein [(637, [0, 1, 2, 3])] [1, 0, 2, 3]) (-1) 1,
    -- 4103: del x410
    .del 637,
    -- 4104: l2new_aaaa += einsum("ijab->abij", x414)
    .add 281 (.ein [(259, [0, 1, 2, 3])] [2, 3, 0, 1]) 1 1,
    -- 4105: l2new_aaaa += einsum("ijab->baij", x414) * -1
    .add 281 (.ein [(259, [0, 1, 2, 3])] [3, 2, 0, 1]) (-1) 1,
    -- 4106: l2new_aaaa += einsum("ijab->abji", x414) * -1
    .add 281 (.ein [(259, [0, 1, 2, 3])] [2, 3, 1, 0]) (-1) 1,
    -- 4107: l2new_aaaa += einsum("ijab->baji", x414)
    .add 281 (.ein [(259, [0, 1, 2, 3])] [3, 2, 1, 0]) 1 1,
    -- 4108: del x414
    .del 259,
    -- 4109: x543 += einsum("ab->ab", x407) * -1
    .add 303 (.ein [(636, [0, 1])] [0, 1]) (-1) 1,
    -- 4110: del x407
    .del 636,
    -- 4111: x415 = np.zeros((nocc[0], nocc[0], nvir[0], nvir[0]), dtype=types[float])
    .zeros 638 [0, 0, 1, 1],
    -- 4112: x415 += einsum("abij,kilj->klab", l2.aaaa, v.aaaa.oooo)
    .add 638 (.ein [(26, [0, 1, 2, 3]), (32, [4, 2, 5, 3])] [4, 5, 0, 1]) 1 1,
    -- 4113: x417 = np.zeros((nocc[0], nocc[0], nvir[0], nvir[0]), dtype=types[float])
    .zeros 639 [0, 0, 1, 1],
    -- 4114: x417 += einsum("ijab->jiba", x415)
    .add 639 (.ein [(638, [0, 1, 2, 3])] [1, 0, 3, 2]) 1 1,
    -- 4115: del x415
    .del 638,
    -- 4116: x416 = np.zeros((nocc[0], nocc[0], nvir[0], nvir[0]), dtype=types[float])
    .zeros 640 [0, 0, 1, 1],
    -- 4117: x416 += einsum("abij,bcad->ijdc", l2.aaaa, v.aaaa.vvvv)
    .add 640 (.ein [(26, [0, 1, 2, 3]), (45, [1, 4, 0, 5])] [2, 3, 5, 4]) 1 1,
    -- 4118: x417 += einsum("ijab->jiba", x416)
    .add 639 (.ein [(640, [0, 1, 2, 3])] [1, 0, 3, 2]) 1 1,
    -- 4119: del x416
    .del 640,
    -- 4120: l2new_aaaa += einsum("ijab->baij", x417) * -1
    .add 281 (.ein [(639, [0, 1, 2, 3])] [3, 2, 0, 1]) (-1) 1,
    -- 4121: l2new_aaaa += einsum("ijab->abij", x417)
    .add 281 (.ein [(639, [0, 1, 2, 3])] [2, 3, 0, 1]) 1 1,
    -- 4122: del x417
    .del 639,
    -- 4123: x423 = np.zeros((nocc[1], nocc[1], nvir[1], nvir[1]), dtype=types[float])
    .zeros 641 [4, 4, 5, 5],
    -- 4124: x423 += einsum("wia,wbj->ijab", gc.bb.bov, lu11.bb)
    .add 641 (.ein [(78, [0, 1, 2]), (65, [0, 3, 4])] [1, 4, 2, 3]) 1 1,
    -- 4125: x467 += einsum("ijab->ijab", x423)
    .add 249 (.ein [(641, [0, 1, 2, 3])] [0, 1, 2, 3]) 1 1,
    -- 4126: del x423
    .del 641,
    -- 4127: x424 = np.zeros((nocc[1], nocc[1], nvir[1], nvir[1]), dtype=types[float])
    .zeros 642 [4, 4, 5, 5],
    -- 4128: x424 += einsum("ai,jbac->ijbc", l1.bb, v.bbbb.ovvv)
    .add 642 (.ein [(44, [0, 1]), (43, [2, 3, 0, 4])] [1, 2, 3, 4]) 1 1,
    -- 4129: x467 -= einsum("ijab->ijab", x424)
    .add 249 (.ein [(642, [0, 1, 2, 3])] [0, 1, 2, 3]) (-1) 1,
    -- 4130: del x424
    .del 642,
    -- 4131: x430 = np.zeros((nocc[1], nvir[1], nvir[1], nvir[1]), dtype=types[float])
    .zeros 643 [4, 5, 5, 5],
    -- 4132: x430 += einsum("iabc->ibac", v.bbbb.ovvv)
    .add 643 (.ein [(43, [0, 1, 2, 3])] [0, 2, 1, 3]) 1 1,
    -- 4133: x430 -= einsum("iabc->ibca", v.bbbb.ovvv)
    .add 643 (.ein [(43, [0, 1, 2, 3])] [0, 2, 3, 1]) (-1) 1,
    -- 4134: x431 = np.zeros((nocc[1], nocc[1], nvir[1], nvir[1]), dtype=types[float])
    .zeros 644 [4, 4, 5, 5],
    -- 4135: x431 += einsum("ia,jbac->ijbc", t1.bb, x430)
    .add 644 (.ein [(12, [0, 1]), (643, [2, 3, 1, 4])] [0, 2, 3, 4]) 1 1,
    -- 4136: del x430
    .del 643,
    -- 4137: x432 = np.zeros((nocc[1], nocc[1], nvir[1], nvir[1]), dtype=types[float])
    .zeros 645 [4, 4, 5, 5],
    -- 4138: x432 -= einsum("ijab->ijab", x431)
    .add 645 (.ein [(644, [0, 1, 2, 3])] [0, 1, 2, 3]) (-1) 1,
    -- 4139: x631 = np.zeros((nocc[1], nocc[1], nvir[1], nvir[1]), dtype=types[float])
    .zeros 646 [4, 4, 5, 5],
    -- 4140: x631 -= einsum("ijab->jiab", x431)
    .add 646 (.ein [(644, [0, 1, 2, 3])] [1, 0, 2, 3]) (-1) 1,
    -- 4141: del x431
    .del 644,
    -- 4142: x432 += einsum("iabj->jiba", v.bbbb.ovvo)
    .add 645 (.ein [(60, [0, 1, 2, 3])] [3, 0, 2, 1]) 1 1,
    -- 4143: x432 -= einsum("ijab->jiab", v.bbbb.oovv)
    .add 645 (.ein [(61, [0, 1, 2, 3])] [1, 0, 2, 3]) (-1) 1,
    -- 4144: x433 = np.zeros((nocc[1], nocc[1], nvir[1], nvir[1]), dtype=types[float])
    .zeros 647 [4, 4, 5, 5],
    -- 4145: x433 += einsum("ijab,ikac->jkbc", x337, x432)
    .add 647 (.ein [(601, [0, 1, 2, 3]), (645, [0, 4, 2, 5])] [1, 4, 3, 5]) 1 1,
    -- 4146: del x432
    .del 645,
    -- 4147: del x337
    .del 601,
    -- 4148: x467 += einsum("ijab->ijab", x433)
    .add 249 (.ein [(647, [0, 1, 2, 3])] [0, 1, 2, 3]) 1 1,
    -- 4149: del x433
    .del 647,
    -- 4150: x434 = np.zeros((nocc[0], nocc[0], nvir[0], nvir[0]), dtype=types[float])
    .zeros 648 [0, 0, 1, 1],
    -- 4151: x434 += einsum("ijab->jiab", t2.aaaa)
    .add 648 (.ein [(20, [0, 1, 2, 3])] [1, 0, 2, 3]) 1 1,
    -- 4152: x434 -= einsum("ijab->jiba", t2.aaaa)
    .add 648 (.ein [(20, [0, 1, 2, 3])] [1, 0, 3, 2]) (-1) 1,
    -- 4153: x435 = np.zeros((nocc[0], nocc[1], nvir[0], nvir[1]), dtype=types[float])
    .zeros 649 [0, 4, 1, 5],
    -- 4154: x435 += einsum("iajb,ikac->kjcb", v.aabb.ovov, x434)
    .add 649 (.ein [(14, [0, 1, 2, 3]), (648, [0, 4, 1, 5])] [4, 2, 5, 3]) 1 1,
    -- 4155: x436 -= einsum("ijab->ijab", x435)
    .add 592 (.ein [(649, [0, 1, 2, 3])] [0, 1, 2, 3]) (-1) 1,
    -- 4156: del x435
    .del 649,
    -- 4157: x591 = np.zeros((nbos, nocc[0], nvir[0]), dtype=types[float])
    .zeros 650 [2, 0, 1],
    -- 4158: x591 += einsum("wia,ijab->wjb", g.aa.bov, x434)
    .add 650 (.ein [(2, [0, 1, 2]), (648, [1, 3, 2, 4])] [0, 3, 4]) 1 1,
    -- 4159: del x434
    .del 648,
    -- 4160: x592 = np.zeros((nbos, nocc[0], nvir[0]), dtype=types[float])
    .zeros 651 [2, 0, 1],
    -- 4161: x592 -= einsum("wia->wia", x591)
    .add 651 (.ein [(650, [0, 1, 2])] [0, 1, 2]) (-1) 1,
    -- 4162: del x591
    .del 650,
    -- 4163: x436 += einsum("iabj->jiba", v.bbaa.ovvo)
    .add 592 (.ein [(52, [0, 1, 2, 3])] [3, 0, 2, 1]) 1 1,
    -- 4164: x437 = np.zeros((nocc[1], nocc[1], nvir[1], nvir[1]), dtype=types[float])
    .zeros 652 [4, 4, 5, 5],
    -- 4165: x437 += einsum("abij,ikac->jkbc", l2.abab, x436)
    .add 652 (.ein [(8, [0, 1, 2, 3]), (592, [2, 4, 0, 5])] [3, 4, 1, 5]) 1 1,
    -- 4166: del x436
    .del 592,
    -- 4167: x467 += einsum("ijab->ijab", x437)
    .add 249 (.ein [(652, [0, 1, 2, 3])] [0, 1, 2, 3]) 1 1,
    -- 4168: del x437
    .del 652,
    -- 4169: x439 = np.zeros((nocc[1], nocc[1], nocc[1], nvir[1]), dtype=types[float])
    .zeros 653 [4, 4, 4, 5],
    -- 4170: x439 += einsum("ijka->ikja", v.bbbb.ooov)
    .add 653 (.ein [(59, [0, 1, 2, 3])] [0, 2, 1, 3]) 1 1,
    -- 4171: x439 -= einsum("ijka->kija", v.bbbb.ooov)
    .add 653 (.ein [(59, [0, 1, 2, 3])] [2, 0, 1, 3]) (-1) 1,
    -- 4172: x440 = np.zeros((nocc[1], nocc[1], nvir[1], nvir[1]), dtype=types[float])
    .zeros 654 [4, 4, 5, 5],
    -- 4173: x440 += einsum("ijka,lkjb->ilab", x438, x439)
    .add 654 (.ein [(475, [0, 1, 2, 3]), (653, [4, 2, 1, 5])] [0, 4, 3, 5]) 1 1,
    -- 4174: del x438
    .del 475,
    -- 4175: del x439
    .del 653,
    -- 4176: x467 += einsum("ijab->ijab", x440)
    .add 249 (.ein [(654, [0, 1, 2, 3])] [0, 1, 2, 3]) 1 1,
    -- 4177: del x440
    .del 654,
    -- 4178: x441 = np.zeros((nvir[1], nvir[1]), dtype=types[float])
    .zeros 655 [5, 5],
    -- 4179: x441 += einsum("wia,wib->ab", g.bb.bov, u11.bb)
    .add 655 (.ein [(6, [0, 1, 2]), (50, [0, 1, 3])] [2, 3]) 1 1,
    -- 4180: x442 -= einsum("ab->ba", x441)
    .add 420 (.ein [(655, [0, 1])] [1, 0]) (-1) 1,
    -- 4181: x540 += einsum("ab->ba", x441) * -1
    .add 412 (.ein [(655, [0, 1])] [1, 0]) (-1) 1,
    -- 4182: del x441
    .del 655,
    -- 4183: x442 += einsum("ab->ab", f.bb.vv)
    .add 420 (.ein [(63, [0, 1])] [0, 1]) 1 1,
    -- 4184: x443 = np.zeros((nocc[1], nocc[1], nvir[1], nvir[1]), dtype=types[float])
    .zeros 656 [4, 4, 5, 5],
    -- 4185: x443 += einsum("ab,acij->ijcb", x442, l2.bbbb)
    .add 656 (.ein [(420, [0, 1]), (35, [0, 2, 3, 4])] [3, 4, 2, 1]) 1 1,
    -- 4186: del x442
    .del 420,
    -- 4187: x467 -= einsum("ijab->jiba", x443)
    .add 249 (.ein [(656, [0, 1, 2, 3])] [1, 0, 3, 2]) (-1) 1,
    -- 4188: del x443
    .del 656,
    -- 4189: x447 += einsum("ia->ia", f.bb.ov)
    .add 309 (.ein [(54, [0, 1])] [0, 1]) 1 1,
    -- 4190: x448 = np.zeros((nocc[1], nocc[1]), dtype=types[float])
    .zeros 657 [4, 4],
    -- 4191: x448 += einsum("ia,ja->ij", t1.bb, x447)
    .add 657 (.ein [(12, [0, 1]), (309, [2, 1])] [0, 2]) 1 1,
    -- 4192: x449 += einsum("ij->ji", x448)
    .add 400 (.ein [(657, [0, 1])] [1, 0]) 1 1,
    -- 4193: del x448
    .del 657,
    -- 4194: x462 = np.zeros((nocc[1], nocc[1], nvir[1], nvir[1]), dtype=types[float])
    .zeros 658 [4, 4, 5, 5],
    -- 4195: x462 += einsum("ia,jkib->jkba", x447, x193)
    .add 658 (.ein [(309, [0, 1]), (464, [2, 3, 0, 4])] [2, 3, 4, 1]) 1 1,
    -- 4196: del x193
    .del 464,
    -- 4197: x467 += einsum("ijab->ijba", x462)
    .add 249 (.ein [(658, [0, 1, 2, 3])] [0, 1, 3, 2]) 1 1,
    -- 4198: del x462
    .del 658,
    -- 4199: x467 += einsum("ai,jb->jiba", l1.bb, x447)
    .add 249 (.ein [(44, [0, 1]), (309, [2, 3])] [2, 1, 3, 0]) 1 1,
    -- 4200: del x447
    .del 309,
    -- 4201: x449 += einsum("ij->ij", f.bb.oo)
    .add 400 (.ein [(62, [0, 1])] [0, 1]) 1 1,
    -- 4202: x450 = np.zeros((nocc[1], nocc[1], nvir[1], nvir[1]), dtype=types[float])
    .zeros 659 [4, 4, 5, 5],
    -- 4203: x450 += einsum("ij,abjk->kiab", x449, l2.bbbb)
    .add 659 (.ein [(400, [0, 1]), (35, [2, 3, 1, 4])] [4, 0, 2, 3]) 1 1,
    -- 4204: del x449
    .del 400,
    -- 4205: x467 += einsum("ijab->jiba", x450)
    .add 249 (.ein [(659, [0, 1, 2, 3])] [1, 0, 3, 2]) 1 1,
    -- 4206: del x450
    .del 659,
    -- 4207: x451 = np.zeros((nocc[1], nocc[1], nocc[1], nvir[1]), dtype=types[float])
    .zeros 660 [4, 4, 4, 5],
    -- 4208: x451 -= einsum("ijka->ikja", v.bbbb.ooov)
    .add 660 (.ein [(59, [0, 1, 2, 3])] [0, 2, 1, 3]) (-1) 1,
    -- 4209: x451 += einsum("ijka->kija", v.bbbb.ooov)
    .add 660 (.ein [(59, [0, 1, 2, 3])] [2, 0, 1, 3]) 1 1,
    -- 4210: x452 = np.zeros((nocc[1], nocc[1]), dtype=types[float])
    .zeros 661 [4, 4],
    -- 4211: x452 += einsum("ia,jika->jk", t1.bb, x451)
    .add 661 (.ein [(12, [0, 1]), (660, [2, 0, 3, 1])] [2, 3]) 1 1,
    -- 4212: x453 -= einsum("ij->ij", x452)
    .add 403 (.ein [(661, [0, 1])] [0, 1]) (-1) 1,
    -- 4213: del x452
    .del 661,
    -- 4214: x454 = np.zeros((nocc[1], nocc[1], nvir[1], nvir[1]), dtype=types[float])
    .zeros 662 [4, 4, 5, 5],
    -- 4215: x454 += einsum("ij,abjk->kiab", x453, l2.bbbb)
    .add 662 (.ein [(403, [0, 1]), (35, [2, 3, 1, 4])] [4, 0, 2, 3]) 1 1,
    -- 4216: del x453
    .del 403,
    -- 4217: x467 -= einsum("ijab->ijba", x454)
    .add 249 (.ein [(662, [0, 1, 2, 3])] [0, 1, 3, 2]) (-1) 1,
    -- 4218: del x454
    .del 662,
    -- 4219: x536 = np.zeros((nocc[0], nocc[1], nvir[0], nvir[1]), dtype=types[float])
    .zeros 663 [0, 4, 1, 5],
    -- 4220: x536 += einsum("ijka,lkjb->ilab", x1, x451)
    .add 663 (.ein [(86, [0, 1, 2, 3]), (660, [4, 2, 1, 5])] [0, 4, 3, 5]) 1 1,
    -- 4221: del x1
    .del 86,
    -- 4222: l2new_baba -= einsum("ijab->baji", x536)
    .add 91 (.ein [(663, [0, 1, 2, 3])] [3, 2, 1, 0]) (-1) 1,
    -- 4223: l2new_abab -= einsum("ijab->abij", x536)
    .add 92 (.ein [(663, [0, 1, 2, 3])] [2, 3, 0, 1]) (-1) 1,
    -- 4224: del x536
    .del 663,
    -- 4225: lu12new_bb -= einsum("wxij,kjia->xwak", x190, x451)
    .add 245 (.ein [(460, [0, 1, 2, 3]), (660, [4, 3, 2, 5])] [1, 0, 5, 4]) (-1) 1,
    -- 4226: del x451
    .del 660,
    -- 4227: del x190
    .del 460,
    -- 4228: x456 = np.zeros((nocc[1], nocc[1], nvir[1], nvir[1]), dtype=types[float])
    .zeros 664 [4, 4, 5, 5],
    -- 4229: x456 -= einsum("iajb->jiab", v.bbbb.ovov)
    .add 664 (.ein [(53, [0, 1, 2, 3])] [2, 0, 1, 3]) (-1) 1,
    -- 4230: x456 += einsum("iajb->jiba", v.bbbb.ovov)
    .add 664 (.ein [(53, [0, 1, 2, 3])] [2, 0, 3, 1]) 1 1,
    -- 4231: x457 = np.zeros((nbos, nocc[1], nvir[1]), dtype=types[float])
    .zeros 665 [2, 4, 5],
    -- 4232: x457 += einsum("wia,ijba->wjb", u11.bb, x456)
    .add 665 (.ein [(50, [0, 1, 2]), (664, [1, 3, 4, 2])] [0, 3, 4]) 1 1,
    -- 4233: x458 -= einsum("wia->wia", x457)
    .add 507 (.ein [(665, [0, 1, 2])] [0, 1, 2]) (-1) 1,
    -- 4234: x459 = np.zeros((nocc[1], nocc[1], nvir[1], nvir[1]), dtype=types[float])
    .zeros 666 [4, 4, 5, 5],
    -- 4235: x459 += einsum("wai,wjb->ijab", lu11.bb, x458)
    .add 666 (.ein [(65, [0, 1, 2]), (507, [0, 3, 4])] [2, 3, 1, 4]) 1 1,
    -- 4236: del x458
    .del 507,
    -- 4237: x467 += einsum("ijab->ijab", x459)
    .add 249 (.ein [(666, [0, 1, 2, 3])] [0, 1, 2, 3]) 1 1,
    -- 4238: del x459
    .del 666,
    -- 4239: x555 -= einsum("wia->wia", x457)
    .add 508 (.ein [(665, [0, 1, 2])] [0, 1, 2]) (-1) 1,
    -- 4240: del x457
    .del 665,
    -- 4241: x465 = np.zeros((nocc[1], nvir[1]), dtype=types[float])
    .zeros 667 [4, 5],
    -- 4242: x465 += einsum("ia,ijba->jb", t1.bb, x456)
    .add 667 (.ein [(12, [0, 1]), (664, [0, 2, 3, 1])] [2, 3]) 1 1,
    -- 4243: del x456
    .del 664,
    -- 4244: x466 -= einsum("ia->ia", x465)
    .add 313 (.ein [(667, [0, 1])] [0, 1]) (-1) 1,
    -- 4245: x467 += einsum("ai,jb->ijab", l1.bb, x466)
    .add 249 (.ein [(44, [0, 1]), (313, [2, 3])] [1, 2, 0, 3]) 1 1,
    -- 4246: del x466
    .del 313,
    -- 4247: x563 -= einsum("ia->ia", x465)
    .add 310 (.ein [(667, [0, 1])] [0, 1]) (-1) 1,
    -- 4248: del x465
    .del 667,
    -- 4249: x463 -= einsum("ijka->jika", v.bbbb.ooov)
    .add 387 (.ein [(59, [0, 1, 2, 3])] [1, 0, 2, 3]) (-1) 1,
    -- 4250: x464 = np.zeros((nocc[1], nocc[1], nvir[1], nvir[1]), dtype=types[float])
    .zeros 668 [4, 4, 5, 5],
    -- 4251: x464 += einsum("ai,ijkb->jkab", l1.bb, x463)
    .add 668 (.ein [(44, [0, 1]), (387, [1, 2, 3, 4])] [2, 3, 0, 4]) 1 1,
    -- 4252: del x463
    .del 387,
    -- 4253: x467 += einsum("ijab->ijab", x464)
    .add 249 (.ein [(668, [0, 1, 2, 3])] [0, 1, 2, 3]) 1 1,
    -- 4254: del x464
    .del 668,
    -- 4255: l2new_bbbb += einsum("ijab->abij", x467)
    .add 585 (.ein [(249, [0, 1, 2, 3])] [2, 3, 0, 1]) 1 1,
    -- 4256: l2new_bbbb -= einsum("ijab->baij", x467)
    .add 585 (.ein [(249, [0, 1, 2, 3])] [3, 2, 0, 1]) (-1) 1,
    -- 4257: l2new_bbbb -= einsum("ijab->abji", x467)
    .add 585 (.ein [(249, [0, 1, 2, 3])] [2, 3, 1, 0]) (-1) 1,
    -- 4258: l2new_bbbb += einsum("ijab->baji", x467)
    .add 585 (.ein [(249, [0, 1, 2, 3])] [3, 2, 1, 0]) 1 1,
    -- 4259: del x467
    .del 249,
    -- 4260: x474 = np.zeros((nbos, nbos, nocc[1], nvir[1]), dtype=types[float])
    .zeros 669 [2, 2, 4, 5],
    -- 4261: x474 += einsum("wxia,iajb->wxjb", u12.aa, v.aabb.ovov)
    .add 669 (.ein [(25, [0, 1, 2, 3]), (14, [2, 3, 4, 5])] [0, 1, 4, 5]) 1 1,
    -- 4262: x476 += einsum("wxia->xwia", x474)
    .add 326 (.ein [(669, [0, 1, 2, 3])] [1, 0, 2, 3]) 1 1,
    -- 4263: del x474
    .del 669,
    -- 4264: x477 = np.zeros((nocc[1], nocc[1], nvir[1], nvir[1]), dtype=types[float])
    .zeros 670 [4, 4, 5, 5],
    -- 4265: x477 += einsum("wxai,wxjb->ijab", lu12.bb, x476) * 0.5
    .add 670 (.ein [(36, [0, 1, 2, 3]), (326, [0, 1, 4, 5])] [3, 4, 2, 5]) 1 2,
    -- 4266: x491 += einsum("ijab->ijab", x477)
    .add 406 (.ein [(670, [0, 1, 2, 3])] [0, 1, 2, 3]) 1 1,
    -- 4267: del x477
    .del 670,
    -- 4268: x537 = np.zeros((nocc[0], nocc[1], nvir[0], nvir[1]), dtype=types[float])
    .zeros 671 [0, 4, 1, 5],
    -- 4269: x537 += einsum("wxai,wxjb->ijab", lu12.aa, x476) * 0.5
    .add 671 (.ein [(33, [0, 1, 2, 3]), (326, [0, 1, 4, 5])] [3, 4, 2, 5]) 1 2,
    -- 4270: del x476
    .del 326,
    -- 4271: l2new_baba += einsum("ijab->baji", x537)
    .add 91 (.ein [(671, [0, 1, 2, 3])] [3, 2, 1, 0]) 1 1,
    -- 4272: l2new_abab += einsum("ijab->abij", x537)
    .add 92 (.ein [(671, [0, 1, 2, 3])] [2, 3, 0, 1]) 1 1,
    -- 4273: del x537
    .del 671,
    -- 4274: x484 = np.zeros((nvir[1], nvir[1]), dtype=types[float])
    .zeros 672 [5, 5],
    -- 4275: x484 += einsum("ijab,iajc->bc", t2.abab, v.aabb.ovov)
    .add 672 (.ein [(9, [0, 1, 2, 3]), (14, [0, 2, 1, 4])] [3, 4]) 1 1,
    -- 4276: x486 += einsum("ab->ab", x484)
    .add 329 (.ein [(672, [0, 1])] [0, 1]) 1 1,
    -- 4277: x487 = np.zeros((nocc[1], nocc[1], nvir[1], nvir[1]), dtype=types[float])
    .zeros 673 [4, 4, 5, 5],
    -- 4278: x487 += einsum("ab,acij->ijcb", x486, l2.bbbb)
    .add 673 (.ein [(329, [0, 1]), (35, [0, 2, 3, 4])] [3, 4, 2, 1]) 1 1,
    -- 4279: del x486
    .del 329,
    -- 4280: x491 += einsum("ijab->jiab", x487) * -1
    .add 406 (.ein [(673, [0, 1, 2, 3])] [1, 0, 2, 3]) (-1) 1,
    -- 4281: del x487
    .del 673,
    -- 4282: l2new_bbbb += einsum("ijab->abij", x491)
    .add 585 (.ein [(406, [0, 1, 2, 3])] [2, 3, 0, 1]) 1 1,
    -- 4283: l2new_bbbb += einsum("ijab->baij", x491) * -1
    .add 585 (.ein [(406, [0, 1, 2, 3])] [3, 2, 0, 1]) (-1) 1,
    -- 4284: l2new_bbbb += einsum("ijab->abji", x491) * -1
    .add 585 (.ein [(406, [0, 1, 2, 3])] [2, 3, 1, 0]) (-1) 1,
    -- 4285: l2new_bbbb += einsum("ijab->baji", x491)
    .add 585 (.ein [(406, [0, 1, 2, 3])] [3, 2, 1, 0]) 1 1,
    -- 4286: del x491
    .del 406,
    -- 4287: x540 += einsum("ab->ab", x484) * -1
    .add 412 (.ein [(672, [0, 1])] [0, 1]) (-1) 1,
    -- 4288: del x484
    .del 672,
    -- 4289: x492 = np.zeros((nocc[1], nocc[1], nvir[1], nvir[1]), dtype=types[float])
    .zeros 674 [4, 4, 5, 5],
    -- 4290: x492 += einsum("abij,kilj->klab", l2.bbbb, v.bbbb.oooo)
    .add 674 (.ein [(35, [0, 1, 2, 3]), (68, [4, 2, 5, 3])] [4, 5, 0, 1]) 1 1,
    -- 4291: x494 = np.zeros((nocc[1], nocc[1], nvir[1], nvir[1]), dtype=types[float])
    .zeros 675 [4, 4, 5, 5],
    -- 4292: x494 += einsum("ijab->jiba", x492)
    .add 675 (.ein [(674, [0, 1, 2, 3])] [1, 0, 3, 2]) 1 1,
    -- 4293: del x492
    .del 674,
    -- 4294: x493 = np.zeros((nocc[1], nocc[1], nvir[1], nvir[1]), dtype=types[float])
    .zeros 676 [4, 4, 5, 5],
    -- 4295: x493 += einsum("abij,bcad->ijdc", l2.bbbb, v.bbbb.vvvv)
    .add 676 (.ein [(35, [0, 1, 2, 3]), (70, [1, 4, 0, 5])] [2, 3, 5, 4]) 1 1,
    -- 4296: x494 += einsum("ijab->jiba", x493)
    .add 675 (.ein [(676, [0, 1, 2, 3])] [1, 0, 3, 2]) 1 1,
    -- 4297: del x493
    .del 676,
    -- 4298: l2new_bbbb += einsum("ijab->baij", x494) * -1
    .add 585 (.ein [(675, [0, 1, 2, 3])] [3, 2, 0, 1]) (-1) 1,
    -- 4299: l2new_bbbb += einsum("ijab->abij", x494)
    .add 585 (.ein [(675, [0, 1, 2, 3])] [2, 3, 0, 1]) 1 1,
    -- 4300: del x494
    .del 675,
    -- 4301: x501 = np.zeros((nocc[0], nocc[1], nvir[0], nvir[1]), dtype=types[float])
    .zeros 677 [0, 4, 1, 5],
    -- 4302: x501 += einsum("abij,acbd->ijcd", l2.abab, v.aabb.vvvv)
    .add 677 (.ein [(8, [0, 1, 2, 3]), (48, [0, 4, 1, 5])] [2, 3, 4, 5]) 1 1,
    -- 4303: l2new_baba += einsum("ijab->baji", x501)
    .add 91 (.ein [(677, [0, 1, 2, 3])] [3, 2, 1, 0]) 1 1,
    -- 4304: l2new_abab += einsum("ijab->abij", x501)
    .add 92 (.ein [(677, [0, 1, 2, 3])] [2, 3, 0, 1]) 1 1,
    -- 4305: del x501
    .del 677,
    -- 4306: x502 = np.zeros((nocc[0], nocc[1], nvir[0], nvir[1]), dtype=types[float])
    .zeros 678 [0, 4, 1, 5],
    -- 4307: x502 += einsum("ai,jbac->ijcb", l1.aa, v.bbaa.ovvv)
    .add 678 (.ein [(28, [0, 1]), (15, [2, 3, 0, 4])] [1, 2, 4, 3]) 1 1,
    -- 4308: l2new_baba += einsum("ijab->baji", x502)
    .add 91 (.ein [(678, [0, 1, 2, 3])] [3, 2, 1, 0]) 1 1,
    -- 4309: l2new_abab += einsum("ijab->abij", x502)
    .add 92 (.ein [(678, [0, 1, 2, 3])] [2, 3, 0, 1]) 1 1,
    -- 4310: del x502
    .del 678,
    -- 4311: x504 = np.zeros((nocc[0], nocc[1], nvir[0], nvir[1]), dtype=types[float])
    .zeros 679 [0, 4, 1, 5],
    -- 4312: x504 += einsum("ai,jbac->jibc", l1.bb, v.aabb.ovvv)
    .add 679 (.ein [(44, [0, 1]), (17, [2, 3, 0, 4])] [2, 1, 3, 4]) 1 1,
    -- 4313: l2new_baba += einsum("ijab->baji", x504)
    .add 91 (.ein [(679, [0, 1, 2, 3])] [3, 2, 1, 0]) 1 1,
    -- 4314: l2new_abab += einsum("ijab->abij", x504)
    .add 92 (.ein [(679, [0, 1, 2, 3])] [2, 3, 0, 1]) 1 1,
    -- 4315: del x504
    .del 679,
    -- 4316: x507 += einsum("iabj->jiba", v.bbaa.ovvo)
    .add 301 (.ein [(52, [0, 1, 2, 3])] [3, 0, 2, 1]) 1 1,
    -- 4317: x508 = np.zeros((nocc[0], nocc[1], nvir[0], nvir[1]), dtype=types[float])
    .zeros 680 [0, 4, 1, 5],
    -- 4318: x508 += einsum("ijab,ikac->jkbc", x245, x507)
    .add 680 (.ein [(532, [0, 1, 2, 3]), (301, [0, 4, 2, 5])] [1, 4, 3, 5]) 1 1,
    -- 4319: del x507
    .del 301,
    -- 4320: del x245
    .del 532,
    -- 4321: l2new_baba += einsum("ijab->baji", x508) * -1
    .add 91 (.ein [(680, [0, 1, 2, 3])] [3, 2, 1, 0]) (-1) 1,
    -- 4322: l2new_abab += einsum("ijab->abij", x508) * -1
    .add 92 (.ein [(680, [0, 1, 2, 3])] [2, 3, 0, 1]) (-1) 1,
    -- 4323: del x508
    .del 680,
    -- 4324: x511 += einsum("iabj->ijab", v.aabb.ovvo)
    .add 128 (.ein [(40, [0, 1, 2, 3])] [0, 3, 1, 2]) 1 1,
    -- 4325: l2new_baba += einsum("ijab,kicb->acjk", x296, x511)
    .add 91 (.ein [(573, [0, 1, 2, 3]), (128, [4, 0, 5, 3])] [2, 5, 1, 4]) 1 1,
    -- 4326: del x296
    .del 573,
    -- 4327: l2new_abab += einsum("ijab,kicb->cakj", x287, x511) * -1
    .add 92 (.ein [(564, [0, 1, 2, 3]), (128, [4, 0, 5, 3])] [5, 2, 4, 1]) (-1) 1,
    -- 4328: del x511
    .del 128,
    -- 4329: del x287
    .del 564,
    -- 4330: x513 += einsum("iabj->ijba", v.aaaa.ovvo)
    .add 188 (.ein [(30, [0, 1, 2, 3])] [0, 3, 2, 1]) 1 1,
    -- 4331: x513 += einsum("ijab->ijab", v.aaaa.oovv) * -1
    .add 188 (.ein [(31, [0, 1, 2, 3])] [0, 1, 2, 3]) (-1) 1,
    -- 4332: x514 = np.zeros((nocc[0], nocc[1], nvir[0], nvir[1]), dtype=types[float])
    .zeros 681 [0, 4, 1, 5],
    -- 4333: x514 += einsum("abij,kiac->kjcb", l2.abab, x513)
    .add 681 (.ein [(8, [0, 1, 2, 3]), (188, [4, 2, 0, 5])] [4, 3, 5, 1]) 1 1,
    -- 4334: del x513
    .del 188,
    -- 4335: l2new_baba += einsum("ijab->baji", x514)
    .add 91 (.ein [(681, [0, 1, 2, 3])] [3, 2, 1, 0]) 1 1,
    -- 4336: l2new_abab += einsum("ijab->abij", x514)
    .add 92 (.ein [(681, [0, 1, 2, 3])] [2, 3, 0, 1]) 1 1,
    -- 4337: del x514
    .del 681,
    -- 4338: x515 = np.zeros((nocc[1], nocc[1], nvir[1], nvir[1]), dtype=types[float])
    .zeros 682 [4, 4, 5, 5],
    -- 4339: x515 += einsum("ijab,iakc->jkbc", t2.abab, v.aabb.ovov)
    .add 682 (.ein [(9, [0, 1, 2, 3]), (14, [0, 2, 4, 5])] [1, 4, 3, 5]) 1 1,
    -- 4340: x518 += einsum("ijab->jiab", x515)
    .add 410 (.ein [(682, [0, 1, 2, 3])] [1, 0, 2, 3]) 1 1,
    -- 4341: del x515
    .del 682,
    -- 4342: x518 += einsum("iabj->ijba", v.bbbb.ovvo)
    .add 410 (.ein [(60, [0, 1, 2, 3])] [0, 3, 2, 1]) 1 1,
    -- 4343: x518 += einsum("ijab->ijab", v.bbbb.oovv) * -1
    .add 410 (.ein [(61, [0, 1, 2, 3])] [0, 1, 2, 3]) (-1) 1,
    -- 4344: x519 = np.zeros((nocc[0], nocc[1], nvir[0], nvir[1]), dtype=types[float])
    .zeros 683 [0, 4, 1, 5],
    -- 4345: x519 += einsum("abij,kjbc->ikac", l2.abab, x518)
    .add 683 (.ein [(8, [0, 1, 2, 3]), (410, [4, 3, 1, 5])] [2, 4, 0, 5]) 1 1,
    -- 4346: del x518
    .del 410,
    -- 4347: l2new_baba += einsum("ijab->baji", x519)
    .add 91 (.ein [(683, [0, 1, 2, 3])] [3, 2, 1, 0]) 1 1,
    -- 4348: l2new_abab += einsum("ijab->abij", x519)
    .add 92 (.ein [(683, [0, 1, 2, 3])] [2, 3, 0, 1]) 1 1,
    -- 4349: del x519
    .del 683,
    -- 4350: x520 = np.zeros((nocc[0], nocc[0], nvir[1], nvir[1]), dtype=types[float])
    .zeros 684 [0, 0, 5, 5],
    -- 4351: x520 += einsum("ia,jabc->ijbc", t1.aa, v.aabb.ovvv)
    .add 684 (.ein [(13, [0, 1]), (17, [2, 1, 3, 4])] [0, 2, 3, 4]) 1 1,
    -- 4352: x522 = np.zeros((nocc[0], nocc[0], nvir[1], nvir[1]), dtype=types[float])
    .zeros 685 [0, 0, 5, 5],
    -- 4353: x522 += einsum("ijab->jiab", x520)
    .add 685 (.ein [(684, [0, 1, 2, 3])] [1, 0, 2, 3]) 1 1,
    -- 4354: del x520
    .del 684,
    -- 4355: x521 = np.zeros((nocc[0], nocc[0], nvir[1], nvir[1]), dtype=types[float])
    .zeros 686 [0, 0, 5, 5],
    -- 4356: x521 += einsum("ijab,kajc->ikbc", t2.abab, v.aabb.ovov)
    .add 686 (.ein [(9, [0, 1, 2, 3]), (14, [4, 2, 1, 5])] [0, 4, 3, 5]) 1 1,
    -- 4357: x522 += einsum("ijab->jiab", x521) * -1
    .add 685 (.ein [(686, [0, 1, 2, 3])] [1, 0, 2, 3]) (-1) 1,
    -- 4358: del x521
    .del 686,
    -- 4359: x522 += einsum("ijab->ijab", v.aabb.oovv)
    .add 685 (.ein [(42, [0, 1, 2, 3])] [0, 1, 2, 3]) 1 1,
    -- 4360: x523 = np.zeros((nocc[0], nocc[1], nvir[0], nvir[1]), dtype=types[float])
    .zeros 687 [0, 4, 1, 5],
    -- 4361: x523 += einsum("abij,kibc->kjac", l2.abab, x522)
    .add 687 (.ein [(8, [0, 1, 2, 3]), (685, [4, 2, 1, 5])] [4, 3, 0, 5]) 1 1,
    -- 4362: del x522
    .del 685,
    -- 4363: l2new_baba += einsum("ijab->baji", x523) * -1
    .add 91 (.ein [(687, [0, 1, 2, 3])] [3, 2, 1, 0]) (-1) 1,
    -- 4364: l2new_abab += einsum("ijab->abij", x523) * -1
    .add 92 (.ein [(687, [0, 1, 2, 3])] [2, 3, 0, 1]) (-1) 1,
    -- 4365: del x523
    .del 687,
    -- 4366: x524 = np.zeros((nocc[1], nocc[1], nvir[0], nvir[0]), dtype=types[float])
    .zeros 688 [4, 4, 1, 1],
    -- 4367: x524 += einsum("ijab,ickb->jkac", t2.abab, v.aabb.ovov)
    .add 688 (.ein [(9, [0, 1, 2, 3]), (14, [0, 4, 5, 3])] [1, 5, 2, 4]) 1 1,
    -- 4368: x525 += einsum("ijab->jiab", x524) * -1
    .add 572 (.ein [(688, [0, 1, 2, 3])] [1, 0, 2, 3]) (-1) 1,
    -- 4369: del x524
    .del 688,
    -- 4370: x525 += einsum("ijab->ijab", v.bbaa.oovv)
    .add 572 (.ein [(16, [0, 1, 2, 3])] [0, 1, 2, 3]) 1 1,
    -- 4371: x526 = np.zeros((nocc[0], nocc[1], nvir[0], nvir[1]), dtype=types[float])
    .zeros 689 [0, 4, 1, 5],
    -- 4372: x526 += einsum("abij,kjac->ikcb", l2.abab, x525)
    .add 689 (.ein [(8, [0, 1, 2, 3]), (572, [4, 3, 0, 5])] [2, 4, 5, 1]) 1 1,
    -- 4373: del x525
    .del 572,
    -- 4374: l2new_baba += einsum("ijab->baji", x526) * -1
    .add 91 (.ein [(689, [0, 1, 2, 3])] [3, 2, 1, 0]) (-1) 1,
    -- 4375: l2new_abab += einsum("ijab->abij", x526) * -1
    .add 92 (.ein [(689, [0, 1, 2, 3])] [2, 3, 0, 1]) (-1) 1,
    -- 4376: del x526
    .del 689,
    -- 4377: x528 += einsum("ijkl->ijkl", v.aabb.oooo)
    .add 217 (.ein [(39, [0, 1, 2, 3])] [0, 1, 2, 3]) 1 1,
    -- 4378: x529 = np.zeros((nocc[0], nocc[1], nvir[0], nvir[1]), dtype=types[float])
    .zeros 690 [0, 4, 1, 5],
    -- 4379: x529 += einsum("abij,kilj->klab", l2.abab, x528)
    .add 690 (.ein [(8, [0, 1, 2, 3]), (217, [4, 2, 5, 3])] [4, 5, 0, 1]) 1 1,
    -- 4380: del x528
    .del 217,
    -- 4381: l2new_baba += einsum("ijab->baji", x529)
    .add 91 (.ein [(690, [0, 1, 2, 3])] [3, 2, 1, 0]) 1 1,
    -- 4382: l2new_abab += einsum("ijab->abij", x529)
    .add 92 (.ein [(690, [0, 1, 2, 3])] [2, 3, 0, 1]) 1 1,
    -- 4383: del x529
    .del 690,
    -- 4384: x540 += einsum("ab->ab", f.bb.vv)
    .add 412 (.ein [(63, [0, 1])] [0, 1]) 1 1,
    -- 4385: x541 = np.zeros((nocc[0], nocc[1], nvir[0], nvir[1]), dtype=types[float])
    .zeros 691 [0, 4, 1, 5],
    -- 4386: x541 += einsum("ab,caij->ijcb", x540, l2.abab)
    .add 691 (.ein [(412, [0, 1]), (8, [2, 0, 3, 4])] [3, 4, 2, 1]) 1 1,
    -- 4387: l2new_baba += einsum("ijab->baji", x541)
    .add 91 (.ein [(691, [0, 1, 2, 3])] [3, 2, 1, 0]) 1 1,
    -- 4388: l2new_abab += einsum("ijab->abij", x541)
    .add 92 (.ein [(691, [0, 1, 2, 3])] [2, 3, 0, 1]) 1 1,
    -- 4389: del x541
    .del 691,
    -- 4390: x571 += einsum("ab,wib->wia", x540, u11.bb) * -1
    .add 286 (.ein [(412, [0, 1]), (50, [2, 3, 1])] [2, 3, 0]) (-1) 1,
    -- 4391: lu12new_bb += einsum("ab,wxai->xwbi", x540, lu12.bb)
    .add 245 (.ein [(412, [0, 1]), (36, [2, 3, 0, 4])] [3, 2, 1, 4]) 1 1,
    -- 4392: del x540
    .del 412,
    -- 4393: x543 += einsum("ab->ab", f.aa.vv)
    .add 303 (.ein [(56, [0, 1])] [0, 1]) 1 1,
    -- 4394: x544 = np.zeros((nocc[0], nocc[1], nvir[0], nvir[1]), dtype=types[float])
    .zeros 692 [0, 4, 1, 5],
    -- 4395: x544 += einsum("ab,acij->ijbc", x543, l2.abab)
    .add 692 (.ein [(303, [0, 1]), (8, [0, 2, 3, 4])] [3, 4, 1, 2]) 1 1,
    -- 4396: l2new_baba += einsum("ijab->baji", x544)
    .add 91 (.ein [(692, [0, 1, 2, 3])] [3, 2, 1, 0]) 1 1,
    -- 4397: l2new_abab += einsum("ijab->abij", x544)
    .add 92 (.ein [(692, [0, 1, 2, 3])] [2, 3, 0, 1]) 1 1,
    -- 4398: del x544
    .del 692,
    -- 4399: x575 += einsum("ab,wib->wia", x543, u11.aa) * -1
    .add 178 (.ein [(303, [0, 1]), (24, [2, 3, 1])] [2, 3, 0]) (-1) 1,
    -- 4400: lu12new_aa += einsum("ab,wxai->xwbi", x543, lu12.aa)
    .add 227 (.ein [(303, [0, 1]), (33, [2, 3, 0, 4])] [3, 2, 1, 4]) 1 1,
    -- 4401: del x543
    .del 303,
    -- 4402: x553 += einsum("wia->wia", gc.aa.bov)
    .add 271 (.ein [(74, [0, 1, 2])] [0, 1, 2]) 1 1,
    -- 4403: x554 = np.zeros((nocc[0], nocc[1], nvir[0], nvir[1]), dtype=types[float])
    .zeros 693 [0, 4, 1, 5],
    -- 4404: x554 += einsum("wai,wjb->jiba", lu11.bb, x553)
    .add 693 (.ein [(65, [0, 1, 2]), (271, [0, 3, 4])] [3, 2, 4, 1]) 1 1,
    -- 4405: del x553
    .del 271,
    -- 4406: l2new_baba += einsum("ijab->baji", x554)
    .add 91 (.ein [(693, [0, 1, 2, 3])] [3, 2, 1, 0]) 1 1,
    -- 4407: l2new_abab += einsum("ijab->abij", x554)
    .add 92 (.ein [(693, [0, 1, 2, 3])] [2, 3, 0, 1]) 1 1,
    -- 4408: del x554
    .del 693,
    -- 4409: x555 += einsum("wia->wia", gc.bb.bov)
    .add 508 (.ein [(78, [0, 1, 2])] [0, 1, 2]) 1 1,
    -- 4410: x556 = np.zeros((nocc[0], nocc[1], nvir[0], nvir[1]), dtype=types[float])
    .zeros 694 [0, 4, 1, 5],
    -- 4411: x556 += einsum("wai,wjb->ijab", lu11.aa, x555)
    .add 694 (.ein [(51, [0, 1, 2]), (508, [0, 3, 4])] [2, 3, 1, 4]) 1 1,
    -- 4412: del x555
    .del 508,
    -- 4413: l2new_baba += einsum("ijab->baji", x556)
    .add 91 (.ein [(694, [0, 1, 2, 3])] [3, 2, 1, 0]) 1 1,
    -- 4414: l2new_abab += einsum("ijab->abij", x556)
    .add 92 (.ein [(694, [0, 1, 2, 3])] [2, 3, 0, 1]) 1 1,
    -- 4415: del x556
    .del 694,
    -- 4416: x559 += einsum("ijka->ijka", v.aabb.ooov)
    .add 169 (.ein [(11, [0, 1, 2, 3])] [0, 1, 2, 3]) 1 1,
    -- 4417: x560 = np.zeros((nocc[0], nocc[1], nvir[0], nvir[1]), dtype=types[float])
    .zeros 695 [0, 4, 1, 5],
    -- 4418: x560 += einsum("ai,jikb->jkab", l1.aa, x559)
    .add 695 (.ein [(28, [0, 1]), (169, [2, 1, 3, 4])] [2, 3, 0, 4]) 1 1,
    -- 4419: del x559
    .del 169,
    -- 4420: l2new_baba -= einsum("ijab->baji", x560)
    .add 91 (.ein [(695, [0, 1, 2, 3])] [3, 2, 1, 0]) (-1) 1,
    -- 4421: l2new_abab -= einsum("ijab->abij", x560)
    .add 92 (.ein [(695, [0, 1, 2, 3])] [2, 3, 0, 1]) (-1) 1,
    -- 4422: del x560
    .del 695,
    -- 4423: x561 += einsum("iajk->ijka", v.aabb.ovoo)
    .add 209 (.ein [(10, [0, 1, 2, 3])] [0, 2, 3, 1]) 1 1,
    -- 4424: x562 = np.zeros((nocc[0], nocc[1], nvir[0], nvir[1]), dtype=types[float])
    .zeros 696 [0, 4, 1, 5],
    -- 4425: x562 += einsum("ai,jkib->jkba", l1.bb, x561)
    .add 696 (.ein [(44, [0, 1]), (209, [2, 3, 1, 4])] [2, 3, 4, 0]) 1 1,
    -- 4426: del x561
    .del 209,
    -- 4427: l2new_baba -= einsum("ijab->baji", x562)
    .add 91 (.ein [(696, [0, 1, 2, 3])] [3, 2, 1, 0]) (-1) 1,
    -- 4428: l2new_abab -= einsum("ijab->abij", x562)
    .add 92 (.ein [(696, [0, 1, 2, 3])] [2, 3, 0, 1]) (-1) 1,
    -- 4429: del x562
    .del 696,
    -- 4430: x563 += einsum("ia->ia", f.bb.ov)
    .add 310 (.ein [(54, [0, 1])] [0, 1]) 1 1,
    -- 4431: x578 += einsum("ia,wia->w", x563, u11.bb)
    .add 535 (.ein [(310, [0, 1]), (50, [2, 0, 1])] [2]) 1 1,
    -- 4432: l2new_baba += einsum("ai,jb->baji", l1.aa, x563)
    .add 91 (.ein [(28, [0, 1]), (310, [2, 3])] [3, 0, 2, 1]) 1 1,
    -- 4433: l2new_abab += einsum("ai,jb->abij", l1.aa, x563)
    .add 92 (.ein [(28, [0, 1]), (310, [2, 3])] [0, 3, 1, 2]) 1 1,
    -- 4434: del x563
    .del 310,
    -- 4435: x564 += einsum("ia->ia", f.aa.ov)
    .add 105 (.ein [(19, [0, 1])] [0, 1]) 1 1,
    -- 4436: x578 += einsum("ia,wia->w", x564, u11.aa)
    .add 535 (.ein [(105, [0, 1]), (24, [2, 0, 1])] [2]) 1 1,
    -- 4437: l2new_baba += einsum("ai,jb->abij", l1.bb, x564)
    .add 91 (.ein [(44, [0, 1]), (105, [2, 3])] [0, 3, 1, 2]) 1 1,
    -- 4438: l2new_abab += einsum("ai,jb->baji", l1.bb, x564)
    .add 92 (.ein [(44, [0, 1]), (105, [2, 3])] [3, 0, 2, 1]) 1 1,
    -- 4439: del x564
    .del 105,
    -- 4440: x568 += einsum("wab->wab", gc.bb.bvv)
    .add 425 (.ein [(80, [0, 1, 2])] [0, 1, 2]) 1 1,
    -- 4441: x571 += einsum("ia,wba->wib", t1.bb, x568) * -1
    .add 286 (.ein [(12, [0, 1]), (425, [2, 3, 1])] [2, 0, 3]) (-1) 1,
    -- 4442: del x568
    .del 425,
    -- 4443: x569 = np.zeros((nbos, nocc[1], nvir[1]), dtype=types[float])
    .zeros 697 [2, 4, 5],
    -- 4444: x569 += einsum("ia,wba->wib", t1.bb, g.bb.bvv)
    .add 697 (.ein [(12, [0, 1]), (7, [2, 3, 1])] [2, 0, 3]) 1 1,
    -- 4445: x570 = np.zeros((nbos, nocc[1], nvir[1]), dtype=types[float])
    .zeros 698 [2, 4, 5],
    -- 4446: x570 += einsum("wia->wia", x569)
    .add 698 (.ein [(697, [0, 1, 2])] [0, 1, 2]) 1 1,
    -- 4447: x596 += einsum("wia->wia", x569)
    .add 618 (.ein [(697, [0, 1, 2])] [0, 1, 2]) 1 1,
    -- 4448: del x569
    .del 697,
    -- 4449: x570 += einsum("wai->wia", g.bb.bvo)
    .add 698 (.ein [(5, [0, 1, 2])] [0, 2, 1]) 1 1,
    -- 4450: x571 += einsum("wx,wia->xia", s2, x570) * -1
    .add 286 (.ein [(49, [0, 1]), (698, [0, 2, 3])] [1, 2, 3]) (-1) 1,
    -- 4451: del x570
    .del 698,
    -- 4452: x571 += einsum("wai->wia", gc.bb.bvo) * -1
    .add 286 (.ein [(79, [0, 1, 2])] [0, 2, 1]) (-1) 1,
    -- 4453: x571 += einsum("wab,wxib->xia", g.bb.bvv, u12.bb) * -1
    .add 286 (.ein [(7, [0, 1, 2]), (29, [0, 3, 4, 2])] [3, 4, 1]) (-1) 1,
    -- 4454: x571 += einsum("wia,iabj->wjb", u11.aa, v.aabb.ovvo) * -1
    .add 286 (.ein [(24, [0, 1, 2]), (40, [1, 2, 3, 4])] [0, 4, 3]) (-1) 1,
    -- 4455: ls1new += einsum("wia,wxai->x", x571, lu12.bb) * -1
    .add 373 (.ein [(286, [0, 1, 2]), (36, [0, 3, 2, 1])] [3]) (-1) 1,
    -- 4456: del x571
    .del 286,
    -- 4457: x572 += einsum("wab->wab", gc.aa.bvv)
    .add 364 (.ein [(76, [0, 1, 2])] [0, 1, 2]) 1 1,
    -- 4458: x575 += einsum("ia,wba->wib", t1.aa, x572) * -1
    .add 178 (.ein [(13, [0, 1]), (364, [2, 3, 1])] [2, 0, 3]) (-1) 1,
    -- 4459: del x572
    .del 364,
    -- 4460: x573 = np.zeros((nbos, nocc[0], nvir[0]), dtype=types[float])
    .zeros 699 [2, 0, 1],
    -- 4461: x573 += einsum("ia,wba->wib", t1.aa, g.aa.bvv)
    .add 699 (.ein [(13, [0, 1]), (3, [2, 3, 1])] [2, 0, 3]) 1 1,
    -- 4462: x574 = np.zeros((nbos, nocc[0], nvir[0]), dtype=types[float])
    .zeros 700 [2, 0, 1],
    -- 4463: x574 += einsum("wia->wia", x573)
    .add 700 (.ein [(699, [0, 1, 2])] [0, 1, 2]) 1 1,
    -- 4464: x592 += einsum("wia->wia", x573)
    .add 651 (.ein [(699, [0, 1, 2])] [0, 1, 2]) 1 1,
    -- 4465: del x573
    .del 699,
    -- 4466: x574 += einsum("wai->wia", g.aa.bvo)
    .add 700 (.ein [(1, [0, 1, 2])] [0, 2, 1]) 1 1,
    -- 4467: x575 += einsum("wx,wia->xia", s2, x574) * -1
    .add 178 (.ein [(49, [0, 1]), (700, [0, 2, 3])] [1, 2, 3]) (-1) 1,
    -- 4468: del x574
    .del 700,
    -- 4469: x575 += einsum("wai->wia", gc.aa.bvo) * -1
    .add 178 (.ein [(75, [0, 1, 2])] [0, 2, 1]) (-1) 1,
    -- 4470: x575 += einsum("wab,wxib->xia", g.aa.bvv, u12.aa) * -1
    .add 178 (.ein [(3, [0, 1, 2]), (25, [0, 3, 4, 2])] [3, 4, 1]) (-1) 1,
    -- 4471: x575 += einsum("wia,iabj->wjb", u11.bb, v.bbaa.ovvo) * -1
    .add 178 (.ein [(50, [0, 1, 2]), (52, [1, 2, 3, 4])] [0, 4, 3]) (-1) 1,
    -- 4472: ls1new += einsum("wia,wxai->x", x575, lu12.aa) * -1
    .add 373 (.ein [(178, [0, 1, 2]), (33, [0, 3, 2, 1])] [3]) (-1) 1,
    -- 4473: del x575
    .del 178,
    -- 4474: x577 += einsum("w->w", G)
    .add 368 (.ein [(57, [0])] [0]) 1 1,
    -- 4475: x578 += einsum("w,wx->x", x577, s2)
    .add 535 (.ein [(368, [0]), (49, [0, 1])] [1]) 1 1,
    -- 4476: x605 += einsum("w,x->xw", ls1, x577)
    .add 244 (.ein [(37, [0]), (368, [1])] [1, 0]) 1 1,
    -- 4477: del x577
    .del 368,
    -- 4478: x578 += einsum("w->w", G)
    .add 535 (.ein [(57, [0])] [0]) 1 1,
    -- 4479: ls1new += einsum("w,wx->x", x578, ls2)
    .add 373 (.ein [(535, [0]), (38, [0, 1])] [1]) 1 1,
    -- 4480: del x578
    .del 535,
    -- 4481: x579 = np.zeros((nbos, nbos), dtype=types[float])
    .zeros 701 [2, 2],
    -- 4482: x579 += einsum("wx,yx->wy", ls2, w)
    .add 701 (.ein [(38, [0, 1]), (66, [2, 1])] [0, 2]) 1 1,
    -- 4483: x605 += einsum("wx->wx", x579)
    .add 244 (.ein [(701, [0, 1])] [0, 1]) 1 1,
    -- 4484: del x579
    .del 701,
    -- 4485: x580 = np.zeros((nbos, nvir[0], nvir[0]), dtype=types[float])
    .zeros 702 [2, 1, 1],
    -- 4486: x580 += einsum("wia,wxbi->xba", u11.aa, lu12.aa)
    .add 702 (.ein [(24, [0, 1, 2]), (33, [0, 3, 4, 1])] [3, 4, 2]) 1 1,
    -- 4487: x581 = np.zeros((nbos, nbos), dtype=types[float])
    .zeros 703 [2, 2],
    -- 4488: x581 += einsum("wab,xab->wx", g.aa.bvv, x580)
    .add 703 (.ein [(3, [0, 1, 2]), (702, [3, 1, 2])] [0, 3]) 1 1,
    -- 4489: x605 += einsum("wx->wx", x581)
    .add 244 (.ein [(703, [0, 1])] [0, 1]) 1 1,
    -- 4490: del x581
    .del 703,
    -- 4491: x608 = np.zeros((nbos, nbos, nocc[0], nvir[0]), dtype=types[float])
    .zeros 704 [2, 2, 0, 1],
    -- 4492: x608 += einsum("wia,xba->wxib", g.aa.bov, x580)
    .add 704 (.ein [(2, [0, 1, 2]), (702, [3, 4, 2])] [0, 3, 1, 4]) 1 1,
    -- 4493: del x580
    .del 702,
    -- 4494: x612 += einsum("wxia->wxia", x608)
    .add 437 (.ein [(704, [0, 1, 2, 3])] [0, 1, 2, 3]) 1 1,
    -- 4495: del x608
    .del 704,
    -- 4496: x583 = np.zeros((nbos, nvir[1], nvir[1]), dtype=types[float])
    .zeros 705 [2, 5, 5],
    -- 4497: x583 += einsum("wia,xwbi->xba", u11.bb, lu12.bb)
    .add 705 (.ein [(50, [0, 1, 2]), (36, [3, 0, 4, 1])] [3, 4, 2]) 1 1,
    -- 4498: x584 = np.zeros((nbos, nbos), dtype=types[float])
    .zeros 706 [2, 2],
    -- 4499: x584 += einsum("wab,xab->wx", g.bb.bvv, x583)
    .add 706 (.ein [(7, [0, 1, 2]), (705, [3, 1, 2])] [0, 3]) 1 1,
    -- 4500: x605 += einsum("wx->wx", x584)
    .add 244 (.ein [(706, [0, 1])] [0, 1]) 1 1,
    -- 4501: del x584
    .del 706,
    -- 4502: x626 = np.zeros((nbos, nbos, nocc[1], nvir[1]), dtype=types[float])
    .zeros 707 [2, 2, 4, 5],
    -- 4503: x626 += einsum("wia,xba->wxib", g.bb.bov, x583)
    .add 707 (.ein [(6, [0, 1, 2]), (705, [3, 4, 2])] [0, 3, 1, 4]) 1 1,
    -- 4504: del x583
    .del 705,
    -- 4505: x630 += einsum("wxia->wxia", x626)
    .add 485 (.ein [(707, [0, 1, 2, 3])] [0, 1, 2, 3]) 1 1,
    -- 4506: del x626
    .del 707,
    -- 4507: x590 = np.zeros((nbos, nocc[0], nvir[0]), dtype=types[float])
    .zeros 708 [2, 0, 1],
    -- 4508: x590 += einsum("wia,jiba->wjb", g.bb.bov, t2.abab)
    .add 708 (.ein [(6, [0, 1, 2]), (9, [3, 1, 4, 2])] [0, 3, 4]) 1 1,
    -- 4509: x592 += einsum("wia->wia", x590)
    .add 651 (.ein [(708, [0, 1, 2])] [0, 1, 2]) 1 1,
    -- 4510: del x590
    .del 708,
    -- 4511: x592 += einsum("wai->wia", g.aa.bvo)
    .add 651 (.ein [(1, [0, 1, 2])] [0, 2, 1]) 1 1,
    -- 4512: x593 = np.zeros((nbos, nbos), dtype=types[float])
    .zeros 709 [2, 2],
    -- 4513: x593 += einsum("wai,xia->wx", lu11.aa, x592)
    .add 709 (.ein [(51, [0, 1, 2]), (651, [3, 2, 1])] [0, 3]) 1 1,
    -- 4514: del x592
    .del 651,
    -- 4515: x605 += einsum("wx->xw", x593)
    .add 244 (.ein [(709, [0, 1])] [1, 0]) 1 1,
    -- 4516: del x593
    .del 709,
    -- 4517: x594 = np.zeros((nbos, nocc[1], nvir[1]), dtype=types[float])
    .zeros 710 [2, 4, 5],
    -- 4518: x594 += einsum("wia,ijab->wjb", g.aa.bov, t2.abab)
    .add 710 (.ein [(2, [0, 1, 2]), (9, [1, 3, 2, 4])] [0, 3, 4]) 1 1,
    -- 4519: x596 += einsum("wia->wia", x594)
    .add 618 (.ein [(710, [0, 1, 2])] [0, 1, 2]) 1 1,
    -- 4520: del x594
    .del 710,
    -- 4521: x596 += einsum("wai->wia", g.bb.bvo)
    .add 618 (.ein [(5, [0, 1, 2])] [0, 2, 1]) 1 1,
    -- 4522: x597 = np.zeros((nbos, nbos), dtype=types[float])
    .zeros 711 [2, 2],
    -- 4523: x597 += einsum("wai,xia->wx", lu11.bb, x596)
    .add 711 (.ein [(65, [0, 1, 2]), (618, [3, 2, 1])] [0, 3]) 1 1,
    -- 4524: del x596
    .del 618,
    -- 4525: x605 += einsum("wx->xw", x597)
    .add 244 (.ein [(711, [0, 1])] [1, 0]) 1 1,
    -- 4526: del x597
    .del 711,
    -- 4527: x598 += einsum("wij->wij", g.aa.boo)
    .add 342 (.ein [(0, [0, 1, 2])] [0, 1, 2]) 1 1,
    -- 4528: x599 = np.zeros((nbos, nbos), dtype=types[float])
    .zeros 712 [2, 2],
    -- 4529: x599 += einsum("wij,xji->wx", x167, x598)
    .add 712 (.ein [(430, [0, 1, 2]), (342, [3, 2, 1])] [0, 3]) 1 1,
    -- 4530: del x167
    .del 430,
    -- 4531: x605 -= einsum("wx->xw", x599)
    .add 244 (.ein [(712, [0, 1])] [1, 0]) (-1) 1,
    -- 4532: del x599
    .del 712,
    -- 4533: x600 = np.zeros((nbos, nbos), dtype=types[float])
    .zeros 713 [2, 2],
    -- 4534: x600 += einsum("wij,xji->wx", x168, x598)
    .add 713 (.ein [(433, [0, 1, 2]), (342, [3, 2, 1])] [0, 3]) 1 1,
    -- 4535: del x168
    .del 433,
    -- 4536: x605 -= einsum("wx->xw", x600)
    .add 244 (.ein [(713, [0, 1])] [1, 0]) (-1) 1,
    -- 4537: del x600
    .del 713,
    -- 4538: x609 = np.zeros((nbos, nbos, nocc[0], nvir[0]), dtype=types[float])
    .zeros 714 [2, 2, 0, 1],
    -- 4539: x609 += einsum("wai,xji->wxja", lu11.aa, x598)
    .add 714 (.ein [(51, [0, 1, 2]), (342, [3, 4, 2])] [0, 3, 4, 1]) 1 1,
    -- 4540: del x598
    .del 342,
    -- 4541: x612 += einsum("wxia->xwia", x609)
    .add 437 (.ein [(714, [0, 1, 2, 3])] [1, 0, 2, 3]) 1 1,
    -- 4542: del x609
    .del 714,
    -- 4543: x601 += einsum("wij->wij", g.bb.boo)
    .add 396 (.ein [(4, [0, 1, 2])] [0, 1, 2]) 1 1,
    -- 4544: x602 = np.zeros((nbos, nbos), dtype=types[float])
    .zeros 715 [2, 2],
    -- 4545: x602 += einsum("wij,xji->wx", x196, x601)
    .add 715 (.ein [(478, [0, 1, 2]), (396, [3, 2, 1])] [0, 3]) 1 1,
    -- 4546: del x196
    .del 478,
    -- 4547: x605 -= einsum("wx->xw", x602)
    .add 244 (.ein [(715, [0, 1])] [1, 0]) (-1) 1,
    -- 4548: del x602
    .del 715,
    -- 4549: ls2new += einsum("wx->wx", x605)
    .add 374 (.ein [(244, [0, 1])] [0, 1]) 1 1,
    -- 4550: ls2new += einsum("wx->xw", x605)
    .add 374 (.ein [(244, [0, 1])] [1, 0]) 1 1,
    -- 4551: del x605
    .del 244,
    -- 4552: x627 = np.zeros((nbos, nbos, nocc[1], nvir[1]), dtype=types[float])
    .zeros 716 [2, 2, 4, 5],
    -- 4553: x627 += einsum("wai,xji->wxja", lu11.bb, x601)
    .add 716 (.ein [(65, [0, 1, 2]), (396, [3, 4, 2])] [0, 3, 4, 1]) 1 1,
    -- 4554: del x601
    .del 396,
    -- 4555: x630 += einsum("wxia->xwia", x627)
    .add 485 (.ein [(716, [0, 1, 2, 3])] [1, 0, 2, 3]) 1 1,
    -- 4556: del x627
    .del 716,
    -- 4557: x606 = np.zeros((nbos, nbos, nocc[0], nvir[0]), dtype=types[float])
    .zeros 717 [2, 2, 0, 1],
    -- 4558: x606 += einsum("wx,xyai->ywia", w, lu12.aa)
    .add 717 (.ein [(66, [0, 1]), (33, [1, 2, 3, 4])] [2, 0, 4, 3]) 1 1,
    -- 4559: x612 -= einsum("wxia->wxia", x606)
    .add 437 (.ein [(717, [0, 1, 2, 3])] [0, 1, 2, 3]) (-1) 1,
    -- 4560: del x606
    .del 717,
    -- 4561: x607 = np.zeros((nbos, nbos, nocc[0], nvir[0]), dtype=types[float])
    .zeros 718 [2, 2, 0, 1],
    -- 4562: x607 += einsum("wab,xai->wxib", g.aa.bvv, lu11.aa)
    .add 718 (.ein [(3, [0, 1, 2]), (51, [3, 1, 4])] [0, 3, 4, 2]) 1 1,
    -- 4563: x612 -= einsum("wxia->wxia", x607)
    .add 437 (.ein [(718, [0, 1, 2, 3])] [0, 1, 2, 3]) (-1) 1,
    -- 4564: del x607
    .del 718,
    -- 4565: lu12new_aa -= einsum("wxia->wxai", x612)
    .add 227 (.ein [(437, [0, 1, 2, 3])] [0, 1, 3, 2]) (-1) 1,
    -- 4566: lu12new_aa -= einsum("wxia->xwai", x612)
    .add 227 (.ein [(437, [0, 1, 2, 3])] [1, 0, 3, 2]) (-1) 1,
    -- 4567: del x612
    .del 437,
    -- 4568: x613 = np.zeros((nbos, nbos, nocc[0], nvir[0]), dtype=types[float])
    .zeros 719 [2, 2, 0, 1],
    -- 4569: x613 += einsum("wxai,jiba->wxjb", lu12.bb, t2.abab)
    .add 719 (.ein [(36, [0, 1, 2, 3]), (9, [4, 3, 5, 2])] [0, 1, 4, 5]) 1 1,
    -- 4570: x615 += einsum("wxia->xwia", x613)
    .add 305 (.ein [(719, [0, 1, 2, 3])] [1, 0, 2, 3]) 1 1,
    -- 4571: del x613
    .del 719,
    -- 4572: lu12new_aa += einsum("ijab,wxia->xwbj", x12, x615) * -1
    .add 227 (.ein [(116, [0, 1, 2, 3]), (305, [4, 5, 0, 2])] [5, 4, 3, 1]) (-1) 1,
    -- 4573: del x12
    .del 116,
    -- 4574: lu12new_bb += einsum("iajb,wxia->xwbj", v.aabb.ovov, x615)
    .add 245 (.ein [(14, [0, 1, 2, 3]), (305, [4, 5, 0, 1])] [5, 4, 3, 2]) 1 1,
    -- 4575: del x615
    .del 305,
    -- 4576: x616 += einsum("iabj->ijba", v.aaaa.ovvo)
    .add 456 (.ein [(30, [0, 1, 2, 3])] [0, 3, 2, 1]) 1 1,
    -- 4577: x616 -= einsum("ijab->ijab", v.aaaa.oovv)
    .add 456 (.ein [(31, [0, 1, 2, 3])] [0, 1, 2, 3]) (-1) 1,
    -- 4578: lu12new_aa += einsum("wxai,jiab->xwbj", lu12.aa, x616)
    .add 227 (.ein [(33, [0, 1, 2, 3]), (456, [4, 3, 2, 5])] [1, 0, 5, 4]) 1 1,
    -- 4579: del x616
    .del 456,
    -- 4580: x617 = np.zeros((nbos, nbos, nocc[1], nvir[1]), dtype=types[float])
    .zeros 720 [2, 2, 4, 5],
    -- 4581: x617 += einsum("wxai,ijab->wxjb", lu12.aa, t2.abab)
    .add 720 (.ein [(33, [0, 1, 2, 3]), (9, [3, 4, 2, 5])] [0, 1, 4, 5]) 1 1,
    -- 4582: x619 += einsum("wxia->xwia", x617)
    .add 204 (.ein [(720, [0, 1, 2, 3])] [1, 0, 2, 3]) 1 1,
    -- 4583: del x617
    .del 720,
    -- 4584: lu12new_aa += einsum("iajb,wxjb->xwai", v.aabb.ovov, x619)
    .add 227 (.ein [(14, [0, 1, 2, 3]), (204, [4, 5, 2, 3])] [5, 4, 1, 0]) 1 1,
    -- 4585: lu12new_bb += einsum("wxia,ijba->xwbj", x619, x93) * -1
    .add 245 (.ein [(204, [0, 1, 2, 3]), (314, [2, 4, 5, 3])] [1, 0, 5, 4]) (-1) 1,
    -- 4586: del x619
    .del 204,
    -- 4587: del x93
    .del 314,
    -- 4588: x620 += einsum("iabj->ijab", v.aabb.ovvo)
    .add 235 (.ein [(40, [0, 1, 2, 3])] [0, 3, 1, 2]) 1 1,
    -- 4589: lu12new_aa += einsum("wxai,jiba->xwbj", lu12.bb, x620)
    .add 227 (.ein [(36, [0, 1, 2, 3]), (235, [4, 3, 5, 2])] [1, 0, 5, 4]) 1 1,
    -- 4590: del x620
    .del 235,
    -- 4591: x621 = np.zeros((nbos, nbos, nbos), dtype=types[float])
    .zeros 721 [2, 2, 2],
    -- 4592: x621 += einsum("wia,xyai->xyw", u11.aa, lu12.aa)
    .add 721 (.ein [(24, [0, 1, 2]), (33, [3, 4, 2, 1])] [3, 4, 0]) 1 1,
    -- 4593: x623 = np.zeros((nbos, nbos, nbos), dtype=types[float])
    .zeros 722 [2, 2, 2],
    -- 4594: x623 += einsum("wxy->xwy", x621)
    .add 722 (.ein [(721, [0, 1, 2])] [1, 0, 2]) 1 1,
    -- 4595: del x621
    .del 721,
    -- 4596: x622 = np.zeros((nbos, nbos, nbos), dtype=types[float])
    .zeros 723 [2, 2, 2],
    -- 4597: x622 += einsum("wia,xyai->xyw", u11.bb, lu12.bb)
    .add 723 (.ein [(50, [0, 1, 2]), (36, [3, 4, 2, 1])] [3, 4, 0]) 1 1,
    -- 4598: x623 += einsum("wxy->xwy", x622)
    .add 722 (.ein [(723, [0, 1, 2])] [1, 0, 2]) 1 1,
    -- 4599: del x622
    .del 723,
    -- 4600: lu12new_aa += einsum("wia,xyw->yxai", g.aa.bov, x623)
    .add 227 (.ein [(2, [0, 1, 2]), (722, [3, 4, 0])] [4, 3, 2, 1]) 1 1,
    -- 4601: lu12new_bb += einsum("wia,xyw->yxai", g.bb.bov, x623)
    .add 245 (.ein [(6, [0, 1, 2]), (722, [3, 4, 0])] [4, 3, 2, 1]) 1 1,
    -- 4602: del x623
    .del 722,
    -- 4603: x624 = np.zeros((nbos, nbos, nocc[1], nvir[1]), dtype=types[float])
    .zeros 724 [2, 2, 4, 5],
    -- 4604: x624 += einsum("wx,xyai->ywia", w, lu12.bb)
    .add 724 (.ein [(66, [0, 1]), (36, [1, 2, 3, 4])] [2, 0, 4, 3]) 1 1,
    -- 4605: x630 -= einsum("wxia->wxia", x624)
    .add 485 (.ein [(724, [0, 1, 2, 3])] [0, 1, 2, 3]) (-1) 1,
    -- 4606: del x624
    .del 724,
    -- 4607: x625 = np.zeros((nbos, nbos, nocc[1], nvir[1]), dtype=types[float])
    .zeros 725 [2, 2, 4, 5],
    -- 4608: x625 += einsum("wab,xai->wxib", g.bb.bvv, lu11.bb)
    .add 725 (.ein [(7, [0, 1, 2]), (65, [3, 1, 4])] [0, 3, 4, 2]) 1 1,
    -- 4609: x630 -= einsum("wxia->wxia", x625)
    .add 485 (.ein [(725, [0, 1, 2, 3])] [0, 1, 2, 3]) (-1) 1,
    -- 4610: del x625
    .del 725,
    -- 4611: lu12new_bb -= einsum("wxia->wxai", x630)
    .add 245 (.ein [(485, [0, 1, 2, 3])] [0, 1, 3, 2]) (-1) 1,
    -- 4612: lu12new_bb -= einsum("wxia->xwai", x630)
    .add 245 (.ein [(485, [0, 1, 2, 3])] [1, 0, 3, 2]) (-1) 1,
    -- 4613: del x630
    .del 485,
    -- 4614: x631 += einsum("iabj->ijba", v.bbbb.ovvo)
    .add 646 (.ein [(60, [0, 1, 2, 3])] [0, 3, 2, 1]) 1 1,
    -- 4615: x631 -= einsum("ijab->ijab", v.bbbb.oovv)
    .add 646 (.ein [(61, [0, 1, 2, 3])] [0, 1, 2, 3]) (-1) 1,
    -- 4616: lu12new_bb += einsum("wxai,jiab->xwbj", lu12.bb, x631)
    .add 245 (.ein [(36, [0, 1, 2, 3]), (646, [4, 3, 2, 5])] [1, 0, 5, 4]) 1 1,
    -- 4617: del x631
    .del 646,
    -- 4618: x632 += einsum("iabj->jiba", v.bbaa.ovvo)
    .add 593 (.ein [(52, [0, 1, 2, 3])] [3, 0, 2, 1]) 1 1,
    -- 4619: lu12new_bb += einsum("wxai,ijab->xwbj", lu12.aa, x632)
    .add 245 (.ein [(33, [0, 1, 2, 3]), (593, [3, 4, 2, 5])] [1, 0, 5, 4]) 1 1,
    -- 4620: del x632
    .del 593,
    -- 4621: l1new_aa += einsum("w,wia->ai", ls1, gc.aa.bov)
    .add 84 (.ein [(37, [0]), (74, [0, 1, 2])] [2, 1]) 1 1,
    -- 4622: l1new_aa += einsum("ai,jbai->bj", l1.bb, v.aabb.ovvo)
    .add 84 (.ein [(44, [0, 1]), (40, [2, 3, 0, 1])] [3, 2]) 1 1,
    -- 4623: l1new_aa += einsum("ia->ai", f.aa.ov)
    .add 84 (.ein [(19, [0, 1])] [1, 0]) 1 1,
    -- 4624: l1new_bb += einsum("w,wia->ai", ls1, gc.bb.bov)
    .add 85 (.ein [(37, [0]), (78, [0, 1, 2])] [2, 1]) 1 1,
    -- 4625: l1new_bb += einsum("ai,jbai->bj", l1.aa, v.bbaa.ovvo)
    .add 85 (.ein [(28, [0, 1]), (52, [2, 3, 0, 1])] [3, 2]) 1 1,
    -- 4626: l1new_bb += einsum("ia->ai", f.bb.ov)
    .add 85 (.ein [(54, [0, 1])] [1, 0]) 1 1,
    -- 4627: l2new_aaaa -= einsum("iajb->abji", v.aaaa.ovov)
    .add 281 (.ein [(23, [0, 1, 2, 3])] [1, 3, 2, 0]) (-1) 1,
    -- 4628: l2new_aaaa += einsum("iajb->baji", v.aaaa.ovov)
    .add 281 (.ein [(23, [0, 1, 2, 3])] [3, 1, 2, 0]) 1 1,
    -- 4629: l2new_bbbb -= einsum("iajb->abji", v.bbbb.ovov)
    .add 585 (.ein [(53, [0, 1, 2, 3])] [1, 3, 2, 0]) (-1) 1,
    -- 4630: l2new_bbbb += einsum("iajb->baji", v.bbbb.ovov)
    .add 585 (.ein [(53, [0, 1, 2, 3])] [3, 1, 2, 0]) 1 1,
    -- 4631: l2new_baba += einsum("iajb->baji", v.aabb.ovov)
    .add 91 (.ein [(14, [0, 1, 2, 3])] [3, 1, 2, 0]) 1 1,
    -- 4632: l2new_abab += einsum("iajb->abij", v.aabb.ovov)
    .add 92 (.ein [(14, [0, 1, 2, 3])] [1, 3, 0, 2]) 1 1,
    -- 4633: ls1new += einsum("w,xw->x", ls1, w)
    .add 373 (.ein [(37, [0]), (66, [1, 0])] [1]) 1 1,
    -- 4634: ls1new += einsum("ai,wai->w", l1.aa, g.aa.bvo)
    .add 373 (.ein [(28, [0, 1]), (1, [2, 0, 1])] [2]) 1 1,
    -- 4635: ls1new += einsum("ai,wai->w", l1.bb, g.bb.bvo)
    .add 373 (.ein [(44, [0, 1]), (5, [2, 0, 1])] [2]) 1 1,
    -- 4636: ls1new += einsum("w->w", G)
    .add 373 (.ein [(57, [0])] [0]) 1 1,
    -- 4637: lu11new_aa += einsum("w,xwai->xai", G, lu12.aa)
    .add 226 (.ein [(57, [0]), (33, [1, 0, 2, 3])] [1, 2, 3]) 1 1,
    -- 4638: lu11new_aa += einsum("wx,xia->wai", ls2, gc.aa.bov)
    .add 226 (.ein [(38, [0, 1]), (74, [1, 2, 3])] [0, 3, 2]) 1 1,
    -- 4639: lu11new_aa += einsum("wx,xai->wai", w, lu11.aa)
    .add 226 (.ein [(66, [0, 1]), (51, [1, 2, 3])] [0, 2, 3]) 1 1,
    -- 4640: lu11new_aa -= einsum("ij,waj->wai", f.aa.oo, lu11.aa)
    .add 226 (.ein [(55, [0, 1]), (51, [2, 3, 1])] [2, 3, 0]) (-1) 1,
    -- 4641: lu11new_aa -= einsum("ai,wji->waj", l1.aa, g.aa.boo)
    .add 226 (.ein [(28, [0, 1]), (0, [2, 3, 1])] [2, 0, 3]) (-1) 1,
    -- 4642: lu11new_aa += einsum("ab,wai->wbi", f.aa.vv, lu11.aa)
    .add 226 (.ein [(56, [0, 1]), (51, [2, 0, 3])] [2, 1, 3]) 1 1,
    -- 4643: lu11new_aa += einsum("ai,wab->wbi", l1.aa, g.aa.bvv)
    .add 226 (.ein [(28, [0, 1]), (3, [2, 0, 3])] [2, 3, 1]) 1 1,
    -- 4644: lu11new_aa += einsum("wab,xwai->xbi", gc.aa.bvv, lu12.aa)
    .add 226 (.ein [(76, [0, 1, 2]), (33, [3, 0, 1, 4])] [3, 2, 4]) 1 1,
    -- 4645: lu11new_aa += einsum("wia->wai", g.aa.bov)
    .add 226 (.ein [(2, [0, 1, 2])] [0, 2, 1]) 1 1,
    -- 4646: lu11new_aa -= einsum("wij,xwaj->xai", gc.aa.boo, lu12.aa)
    .add 226 (.ein [(73, [0, 1, 2]), (33, [3, 0, 4, 2])] [3, 4, 1]) (-1) 1,
    -- 4647: lu11new_aa += einsum("wai,baji->wbj", g.bb.bvo, l2.abab)
    .add 226 (.ein [(5, [0, 1, 2]), (8, [3, 1, 4, 2])] [0, 3, 4]) 1 1,
    -- 4648: lu11new_aa += einsum("wai,jbai->wbj", lu11.bb, v.aabb.ovvo)
    .add 226 (.ein [(65, [0, 1, 2]), (40, [3, 4, 1, 2])] [0, 4, 3]) 1 1,
    -- 4649: lu11new_bb += einsum("w,xwai->xai", G, lu12.bb)
    .add 339 (.ein [(57, [0]), (36, [1, 0, 2, 3])] [1, 2, 3]) 1 1,
    -- 4650: lu11new_bb += einsum("wx,xia->wai", ls2, gc.bb.bov)
    .add 339 (.ein [(38, [0, 1]), (78, [1, 2, 3])] [0, 3, 2]) 1 1,
    -- 4651: lu11new_bb += einsum("wx,xai->wai", w, lu11.bb)
    .add 339 (.ein [(66, [0, 1]), (65, [1, 2, 3])] [0, 2, 3]) 1 1,
    -- 4652: lu11new_bb += einsum("ab,wai->wbi", f.bb.vv, lu11.bb)
    .add 339 (.ein [(63, [0, 1]), (65, [2, 0, 3])] [2, 1, 3]) 1 1,
    -- 4653: lu11new_bb += einsum("ai,wab->wbi", l1.bb, g.bb.bvv)
    .add 339 (.ein [(44, [0, 1]), (7, [2, 0, 3])] [2, 3, 1]) 1 1,
    -- 4654: lu11new_bb += einsum("wai,abij->wbj", g.aa.bvo, l2.abab)
    .add 339 (.ein [(1, [0, 1, 2]), (8, [1, 3, 2, 4])] [0, 3, 4]) 1 1,
    -- 4655: lu11new_bb += einsum("wai,jbai->wbj", lu11.aa, v.bbaa.ovvo)
    .add 339 (.ein [(51, [0, 1, 2]), (52, [3, 4, 1, 2])] [0, 4, 3]) 1 1,
    -- 4656: lu11new_bb += einsum("wia->wai", g.bb.bov)
    .add 339 (.ein [(6, [0, 1, 2])] [0, 2, 1]) 1 1,
    -- 4657: lu11new_bb -= einsum("wij,xwaj->xai", gc.bb.boo, lu12.bb)
    .add 339 (.ein [(77, [0, 1, 2]), (36, [3, 0, 4, 2])] [3, 4, 1]) (-1) 1,
    -- 4658: lu11new_bb -= einsum("ij,waj->wai", f.bb.oo, lu11.bb)
    .add 339 (.ein [(62, [0, 1]), (65, [2, 3, 1])] [2, 3, 0]) (-1) 1,
    -- 4659: lu11new_bb -= einsum("ai,wji->waj", l1.bb, g.bb.boo)
    .add 339 (.ein [(44, [0, 1]), (4, [2, 3, 1])] [2, 0, 3]) (-1) 1,
    -- 4660: lu11new_bb += einsum("wab,xwai->xbi", gc.bb.bvv, lu12.bb)
    .add 339 (.ein [(80, [0, 1, 2]), (36, [3, 0, 1, 4])] [3, 2, 4]) 1 1,
    -- 4662: l1new.aa = l1new_aa
    .set 726 (.cp 84) 1 1,
    -- 4663: l1new.bb = l1new_bb
    .set 727 (.cp 85) 1 1,
    -- 4664: l2new.abab = l2new_abab
    .set 728 (.cp 92) 1 1,
    -- 4665: l2new.baba = l2new_baba
    .set 729 (.cp 91) 1 1,
    -- 4666: l2new.aaaa = l2new_aaaa
    .set 730 (.cp 281) 1 1,
    -- 4667: l2new.bbbb = l2new_bbbb
    .set 731 (.cp 585) 1 1,
    -- 4668: lu11new.aa = lu11new_aa
    .set 732 (.cp 226) 1 1,
    -- 4669: lu11new.bb = lu11new_bb
    .set 733 (.cp 339) 1 1,
    -- 4670: lu12new.aa = lu12new_aa
    .set 734 (.cp 227) 1 1,
    -- 4671: lu12new.bb = lu12new_bb
    .set 735 (.cp 245) 1 1
  ]
  ret := [(chars! "l1new.aa", 726), (chars! "l1new.bb", 727), (chars! "l2new.abab", 728), (chars! "l2new.baba", 729), (chars! "l2new.aaaa", 730), (chars! "l2new.bbbb", 731), (chars! "ls1new", 373), (chars! "ls2new", 374), (chars! "lu11new.aa", 732), (chars! "lu11new.bb", 733), (chars! "lu12new.aa", 734), (chars! "lu12new.bb", 735)]

end Ebcc.Gen.UCCSD_SD_1_2
