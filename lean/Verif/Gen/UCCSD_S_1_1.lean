import Verif.Model.GenCode
/-!
Functions of `ebcc/codegen/UCCSD_S_1_1.py`, written by `tools/gencode.py`.  Comments give the
number and the text of the line of each statement.
-/

set_option maxRecDepth 100000

namespace Ebcc.Gen.UCCSD_S_1_1

/-- codegen/UCCSD_S_1_1.py:7-44 `energy`. -/
def energy : GenFun where
  args := [chars! "v.bbbb.ovov", chars! "t2.bbbb", chars! "t1.bb", chars! "v.aaaa.ovov", chars! "t2.aaaa", chars! "t1.aa", chars! "t2.abab", chars! "v.aabb.ovov", chars! "G", chars! "g.aa.bov", chars! "g.bb.bov", chars! "s1", chars! "u11.aa", chars! "f.aa.ov", chars! "f.bb.ov", chars! "u11.bb"]
  body := [
    -- 9: x0 = np.zeros((nocc[1], nocc[1], nvir[1], nvir[1]), dtype=types[float])
    .zeros 16 [4, 4, 5, 5],
    -- 10: x0 += einsum("iajb->jiab", v.bbbb.ovov)
    .add 16 (.ein [(0, [0, 1, 2, 3])] [2, 0, 1, 3]) 1 1,
    -- 11: x0 += einsum("iajb->jiba", v.bbbb.ovov) * -1
    .add 16 (.ein [(0, [0, 1, 2, 3])] [2, 0, 3, 1]) (-1) 1,
    -- 12: x1 = np.zeros((nocc[1], nocc[1], nvir[1], nvir[1]), dtype=types[float])
    .zeros 17 [4, 4, 5, 5],
    -- 13: x1 += einsum("ijab->jiba", t2.bbbb)
    .add 17 (.ein [(1, [0, 1, 2, 3])] [1, 0, 3, 2]) 1 1,
    -- 14: x1 += einsum("ia,jb->ijba", t1.bb, t1.bb) * -1
    .add 17 (.ein [(2, [0, 1]), (2, [2, 3])] [0, 2, 3, 1]) (-1) 1,
    -- 15: e_cc = 0
    .zeros 18 [],
    -- 16: e_cc += einsum("ijab,ijab->", x0, x1) * -0.5
    .add 18 (.ein [(16, [0, 1, 2, 3]), (17, [0, 1, 2, 3])] []) (-1) 2,
    -- 17: del x0
    .del 16,
    -- 18: del x1
    .del 17,
    -- 19: x2 = np.zeros((nocc[0], nocc[0], nvir[0], nvir[0]), dtype=types[float])
    .zeros 19 [0, 0, 1, 1],
    -- 20: x2 += einsum("iajb->jiab", v.aaaa.ovov)
    .add 19 (.ein [(3, [0, 1, 2, 3])] [2, 0, 1, 3]) 1 1,
    -- 21: x2 += einsum("iajb->jiba", v.aaaa.ovov) * -1
    .add 19 (.ein [(3, [0, 1, 2, 3])] [2, 0, 3, 1]) (-1) 1,
    -- 22: x3 = np.zeros((nocc[0], nocc[0], nvir[0], nvir[0]), dtype=types[float])
    .zeros 20 [0, 0, 1, 1],
    -- 23: x3 += einsum("ijab->jiba", t2.aaaa)
    .add 20 (.ein [(4, [0, 1, 2, 3])] [1, 0, 3, 2]) 1 1,
    -- 24: x3 += einsum("ia,jb->ijab", t1.aa, t1.aa)
    .add 20 (.ein [(5, [0, 1]), (5, [2, 3])] [0, 2, 1, 3]) 1 1,
    -- 25: e_cc += einsum("ijab,ijab->", x2, x3) * -0.5
    .add 18 (.ein [(19, [0, 1, 2, 3]), (20, [0, 1, 2, 3])] []) (-1) 2,
    -- 26: del x2
    .del 19,
    -- 27: del x3
    .del 20,
    -- 28: x4 = np.zeros((nocc[0], nocc[1], nvir[0], nvir[1]), dtype=types[float])
    .zeros 21 [0, 4, 1, 5],
    -- 29: x4 += einsum("ijab->ijab", t2.abab)
    .add 21 (.ein [(6, [0, 1, 2, 3])] [0, 1, 2, 3]) 1 1,
    -- 30: x4 += einsum("ia,jb->ijab", t1.aa, t1.bb)
    .add 21 (.ein [(5, [0, 1]), (2, [2, 3])] [0, 2, 1, 3]) 1 1,
    -- 31: e_cc += einsum("iajb,ijab->", v.aabb.ovov, x4)
    .add 18 (.ein [(7, [0, 1, 2, 3]), (21, [0, 2, 1, 3])] []) 1 1,
    -- 32: del x4
    .del 21,
    -- 33: x5 = np.zeros((nbos), dtype=types[float])
    .zeros 22 [2],
    -- 34: x5 += einsum("w->w", G)
    .add 22 (.ein [(8, [0])] [0]) 1 1,
    -- 35: x5 += einsum("ia,wia->w", t1.aa, g.aa.bov)
    .add 22 (.ein [(5, [0, 1]), (9, [2, 0, 1])] [2]) 1 1,
    -- 36: x5 += einsum("ia,wia->w", t1.bb, g.bb.bov)
    .add 22 (.ein [(2, [0, 1]), (10, [2, 0, 1])] [2]) 1 1,
    -- 37: e_cc += einsum("w,w->", s1, x5)
    .add 18 (.ein [(11, [0]), (22, [0])] []) 1 1,
    -- 38: del x5
    .del 22,
    -- 39: e_cc += einsum("wia,wia->", g.aa.bov, u11.aa)
    .add 18 (.ein [(9, [0, 1, 2]), (12, [0, 1, 2])] []) 1 1,
    -- 40: e_cc += einsum("ia,ia->", f.aa.ov, t1.aa)
    .add 18 (.ein [(13, [0, 1]), (5, [0, 1])] []) 1 1,
    -- 41: e_cc += einsum("ia,ia->", f.bb.ov, t1.bb)
    .add 18 (.ein [(14, [0, 1]), (2, [0, 1])] []) 1 1,
    -- 42: e_cc += einsum("wia,wia->", g.bb.bov, u11.bb)
    .add 18 (.ein [(10, [0, 1, 2]), (15, [0, 1, 2])] []) 1 1
  ]
  ret := [(chars! "e_cc", 18)]

/-- codegen/UCCSD_S_1_1.py:46-1437 `update_amps`. -/
def update_amps : GenFun where
  args := [chars! "g.aa.boo", chars! "g.aa.bvo", chars! "g.aa.bov", chars! "g.aa.bvv", chars! "g.bb.boo", chars! "g.bb.bvo", chars! "g.bb.bov", chars! "g.bb.bvv", chars! "t1.aa", chars! "v.aaaa.ovov", chars! "v.aaaa.ooov", chars! "t2.aaaa", chars! "v.aaaa.ovvv", chars! "v.aabb.ovov", chars! "t2.abab", chars! "v.aabb.ooov", chars! "s1", chars! "t1.bb", chars! "u11.aa", chars! "f.aa.ov", chars! "t2.bbbb", chars! "v.bbbb.ovov", chars! "u11.bb", chars! "f.bb.ov", chars! "v.aaaa.ovvo", chars! "v.aaaa.oovv", chars! "f.aa.oo", chars! "v.bbaa.ovvv", chars! "f.aa.vv", chars! "G", chars! "v.bbbb.ooov", chars! "v.bbbb.ovvv", chars! "v.aabb.ovoo", chars! "v.bbbb.ovvo", chars! "v.bbbb.oovv", chars! "f.bb.oo", chars! "v.aabb.ovvv", chars! "f.bb.vv", chars! "v.aaaa.vovv", chars! "v.bbaa.ovvo", chars! "v.aaaa.oovo", chars! "v.aaaa.vvvv", chars! "v.aaaa.oooo", chars! "v.bbbb.vovv", chars! "v.aabb.ovvo", chars! "v.bbbb.oovo", chars! "v.bbbb.oooo", chars! "v.bbbb.vvvv", chars! "v.aabb.vovv", chars! "v.aabb.vvvv", chars! "v.aabb.oovv", chars! "v.aabb.oooo", chars! "v.bbaa.oovv", chars! "v.aabb.oovo", chars! "v.bbaa.oovo", chars! "v.aabb.vvvo", chars! "w", chars! "f.aa.vo", chars! "f.bb.vo", chars! "v.aaaa.vovo", chars! "v.bbbb.vovo", chars! "v.aabb.vovo"]
  body := [
    -- 52: gc = Namespace(
    .set 62 (.tr 0 [0, 2, 1]) 1 1,
    .set 63 (.tr 1 [0, 2, 1]) 1 1,
    .set 64 (.tr 2 [0, 2, 1]) 1 1,
    .set 65 (.tr 3 [0, 2, 1]) 1 1,
    .set 66 (.tr 4 [0, 2, 1]) 1 1,
    .set 67 (.tr 5 [0, 2, 1]) 1 1,
    .set 68 (.tr 6 [0, 2, 1]) 1 1,
    .set 69 (.tr 7 [0, 2, 1]) 1 1,
    -- 68: x0 = np.zeros((nocc[0], nocc[0], nocc[0], nvir[0]), dtype=types[float])
    .zeros 70 [0, 0, 0, 1],
    -- 69: x0 += einsum("ia,jakb->ikjb", t1.aa, v.aaaa.ovov)
    .add 70 (.ein [(8, [0, 1]), (9, [2, 1, 3, 4])] [0, 3, 2, 4]) 1 1,
    -- 70: x1 = np.zeros((nocc[0], nocc[0], nocc[0], nvir[0]), dtype=types[float])
    .zeros 71 [0, 0, 0, 1],
    -- 71: x1 += einsum("ijka->ijka", x0) * -1
    .add 71 (.ein [(70, [0, 1, 2, 3])] [0, 1, 2, 3]) (-1) 1,
    -- 72: x1 += einsum("ijka->ikja", x0)
    .add 71 (.ein [(70, [0, 1, 2, 3])] [0, 2, 1, 3]) 1 1,
    -- 73: x67 = np.zeros((nocc[0], nocc[0], nocc[0], nvir[0]), dtype=types[float])
    .zeros 72 [0, 0, 0, 1],
    -- 74: x67 -= einsum("ijka->ijka", x0)
    .add 72 (.ein [(70, [0, 1, 2, 3])] [0, 1, 2, 3]) (-1) 1,
    -- 75: x67 += einsum("ijka->ikja", x0)
    .add 72 (.ein [(70, [0, 1, 2, 3])] [0, 2, 1, 3]) 1 1,
    -- 76: x93 = np.zeros((nocc[0], nocc[0], nocc[0], nocc[0]), dtype=types[float])
    .zeros 73 [0, 0, 0, 0],
    -- 77: x93 += einsum("ia,jkla->jilk", t1.aa, x0)
    .add 73 (.ein [(8, [0, 1]), (70, [2, 3, 4, 1])] [2, 0, 4, 3]) 1 1,
    -- 78: x94 = np.zeros((nocc[0], nocc[0], nocc[0], nvir[0]), dtype=types[float])
    .zeros 74 [0, 0, 0, 1],
    -- 79: x94 += einsum("ia,jkli->jkla", t1.aa, x93)
    .add 74 (.ein [(8, [0, 1]), (73, [2, 3, 4, 0])] [2, 3, 4, 1]) 1 1,
    -- 80: x95 = np.zeros((nocc[0], nocc[0], nvir[0], nvir[0]), dtype=types[float])
    .zeros 75 [0, 0, 1, 1],
    -- 81: x95 += einsum("ia,jkib->jkab", t1.aa, x94)
    .add 75 (.ein [(8, [0, 1]), (74, [2, 3, 0, 4])] [2, 3, 1, 4]) 1 1,
    -- 82: del x94
    .del 74,
    -- 83: x102 = np.zeros((nocc[0], nocc[0], nvir[0], nvir[0]), dtype=types[float])
    .zeros 76 [0, 0, 1, 1],
    -- 84: x102 += einsum("ijab->ijab", x95)
    .add 76 (.ein [(75, [0, 1, 2, 3])] [0, 1, 2, 3]) 1 1,
    -- 85: del x95
    .del 75,
    -- 86: x134 = np.zeros((nocc[0], nocc[0], nocc[0], nocc[0]), dtype=types[float])
    .zeros 77 [0, 0, 0, 0],
    -- 87: x134 += einsum("ijkl->ijkl", x93)
    .add 77 (.ein [(73, [0, 1, 2, 3])] [0, 1, 2, 3]) 1 1,
    -- 88: del x93
    .del 73,
    -- 89: x261 = np.zeros((nocc[0], nocc[0], nocc[0], nvir[0]), dtype=types[float])
    .zeros 78 [0, 0, 0, 1],
    -- 90: x261 += einsum("ijka->jkia", x0) * -1
    .add 78 (.ein [(70, [0, 1, 2, 3])] [1, 2, 0, 3]) (-1) 1,
    -- 91: x261 += einsum("ijka->kjia", x0)
    .add 78 (.ein [(70, [0, 1, 2, 3])] [2, 1, 0, 3]) 1 1,
    -- 92: del x0
    .del 70,
    -- 93: x1 += einsum("ijka->jika", v.aaaa.ooov)
    .add 71 (.ein [(10, [0, 1, 2, 3])] [1, 0, 2, 3]) 1 1,
    -- 94: x1 += einsum("ijka->jkia", v.aaaa.ooov) * -1
    .add 71 (.ein [(10, [0, 1, 2, 3])] [1, 2, 0, 3]) (-1) 1,
    -- 95: t1new_aa = np.zeros((nocc[0], nvir[0]), dtype=types[float])
    .zeros 79 [0, 1],
    -- 96: t1new_aa += einsum("ijab,kjia->kb", t2.aaaa, x1) * -1
    .add 79 (.ein [(11, [0, 1, 2, 3]), (71, [4, 1, 0, 2])] [4, 3]) (-1) 1,
    -- 97: del x1
    .del 71,
    -- 98: x2 = np.zeros((nocc[0], nvir[0], nvir[0], nvir[0]), dtype=types[float])
    .zeros 80 [0, 1, 1, 1],
    -- 99: x2 += einsum("iabc->ibac", v.aaaa.ovvv)
    .add 80 (.ein [(12, [0, 1, 2, 3])] [0, 2, 1, 3]) 1 1,
    -- 100: x2 += einsum("iabc->ibca", v.aaaa.ovvv) * -1
    .add 80 (.ein [(12, [0, 1, 2, 3])] [0, 2, 3, 1]) (-1) 1,
    -- 101: x30 = np.zeros((nvir[0], nvir[0]), dtype=types[float])
    .zeros 81 [1, 1],
    -- 102: x30 += einsum("ia,ibca->bc", t1.aa, x2)
    .add 81 (.ein [(8, [0, 1]), (80, [0, 2, 3, 1])] [2, 3]) 1 1,
    -- 103: x31 = np.zeros((nvir[0], nvir[0]), dtype=types[float])
    .zeros 82 [1, 1],
    -- 104: x31 += einsum("ab->ab", x30) * -1
    .add 82 (.ein [(81, [0, 1])] [0, 1]) (-1) 1,
    -- 105: x275 = np.zeros((nvir[0], nvir[0]), dtype=types[float])
    .zeros 83 [1, 1],
    -- 106: x275 += einsum("ab->ab", x30) * -1
    .add 83 (.ein [(81, [0, 1])] [0, 1]) (-1) 1,
    -- 107: x307 = np.zeros((nvir[0], nvir[0]), dtype=types[float])
    .zeros 84 [1, 1],
    -- 108: x307 += einsum("ab->ab", x30) * -1
    .add 84 (.ein [(81, [0, 1])] [0, 1]) (-1) 1,
    -- 109: del x30
    .del 81,
    -- 110: x107 = np.zeros((nocc[0], nocc[0], nvir[0], nvir[0]), dtype=types[float])
    .zeros 85 [0, 0, 1, 1],
    -- 111: x107 += einsum("ia,jbac->ijbc", t1.aa, x2)
    .add 85 (.ein [(8, [0, 1]), (80, [2, 3, 1, 4])] [0, 2, 3, 4]) 1 1,
    -- 112: t1new_aa += einsum("ijab,icba->jc", t2.aaaa, x2) * -1
    .add 79 (.ein [(11, [0, 1, 2, 3]), (80, [0, 4, 3, 2])] [1, 4]) (-1) 1,
    -- 113: del x2
    .del 80,
    -- 114: x3 = np.zeros((nocc[0], nocc[0], nocc[1], nvir[1]), dtype=types[float])
    .zeros 86 [0, 0, 4, 5],
    -- 115: x3 += einsum("ia,jakb->ijkb", t1.aa, v.aabb.ovov)
    .add 86 (.ein [(8, [0, 1]), (13, [2, 1, 3, 4])] [0, 2, 3, 4]) 1 1,
    -- 116: x4 = np.zeros((nocc[0], nocc[0], nocc[1], nvir[1]), dtype=types[float])
    .zeros 87 [0, 0, 4, 5],
    -- 117: x4 += einsum("ijka->jika", x3)
    .add 87 (.ein [(86, [0, 1, 2, 3])] [1, 0, 2, 3]) 1 1,
    -- 118: x122 = np.zeros((nocc[0], nocc[0], nocc[0], nvir[0]), dtype=types[float])
    .zeros 88 [0, 0, 0, 1],
    -- 119: x122 += einsum("ijab,kljb->kila", t2.abab, x3)
    .add 88 (.ein [(14, [0, 1, 2, 3]), (86, [4, 5, 1, 3])] [4, 0, 5, 2]) 1 1,
    -- 120: del x3
    .del 86,
    -- 121: x126 = np.zeros((nocc[0], nocc[0], nocc[0], nvir[0]), dtype=types[float])
    .zeros 89 [0, 0, 0, 1],
    -- 122: x126 += einsum("ijka->ikja", x122)
    .add 89 (.ein [(88, [0, 1, 2, 3])] [0, 2, 1, 3]) 1 1,
    -- 123: del x122
    .del 88,
    -- 124: x4 += einsum("ijka->ijka", v.aabb.ooov)
    .add 87 (.ein [(15, [0, 1, 2, 3])] [0, 1, 2, 3]) 1 1,
    -- 125: x285 = np.zeros((nocc[0], nocc[1], nocc[1], nvir[0]), dtype=types[float])
    .zeros 90 [0, 4, 4, 1],
    -- 126: x285 += einsum("ijab,iklb->kjla", t2.abab, x4)
    .add 90 (.ein [(14, [0, 1, 2, 3]), (87, [0, 4, 5, 3])] [4, 1, 5, 2]) 1 1,
    -- 127: x289 = np.zeros((nocc[0], nocc[1], nocc[1], nvir[0]), dtype=types[float])
    .zeros 91 [0, 4, 4, 1],
    -- 128: x289 += einsum("ijka->ikja", x285) * -1
    .add 91 (.ein [(90, [0, 1, 2, 3])] [0, 2, 1, 3]) (-1) 1,
    -- 129: del x285
    .del 90,
    -- 130: t1new_aa += einsum("ijab,ikjb->ka", t2.abab, x4) * -1
    .add 79 (.ein [(14, [0, 1, 2, 3]), (87, [0, 4, 1, 3])] [4, 2]) (-1) 1,
    -- 131: x5 = np.zeros((nocc[0], nvir[0]), dtype=types[float])
    .zeros 92 [0, 1],
    -- 132: x5 += einsum("w,wia->ia", s1, g.aa.bov)
    .add 92 (.ein [(16, [0]), (2, [0, 1, 2])] [1, 2]) 1 1,
    -- 133: x9 = np.zeros((nocc[0], nvir[0]), dtype=types[float])
    .zeros 93 [0, 1],
    -- 134: x9 += einsum("ia->ia", x5)
    .add 93 (.ein [(92, [0, 1])] [0, 1]) 1 1,
    -- 135: x71 = np.zeros((nocc[0], nvir[0]), dtype=types[float])
    .zeros 94 [0, 1],
    -- 136: x71 += einsum("ia->ia", x5)
    .add 94 (.ein [(92, [0, 1])] [0, 1]) 1 1,
    -- 137: x299 = np.zeros((nocc[0], nvir[0]), dtype=types[float])
    .zeros 95 [0, 1],
    -- 138: x299 += einsum("ia->ia", x5)
    .add 95 (.ein [(92, [0, 1])] [0, 1]) 1 1,
    -- 139: x308 = np.zeros((nocc[0], nvir[0]), dtype=types[float])
    .zeros 96 [0, 1],
    -- 140: x308 += einsum("ia->ia", x5)
    .add 96 (.ein [(92, [0, 1])] [0, 1]) 1 1,
    -- 141: del x5
    .del 92,
    -- 142: x6 = np.zeros((nocc[0], nvir[0]), dtype=types[float])
    .zeros 97 [0, 1],
    -- 143: x6 += einsum("ia,jbia->jb", t1.bb, v.aabb.ovov)
    .add 97 (.ein [(17, [0, 1]), (13, [2, 3, 0, 1])] [2, 3]) 1 1,
    -- 144: x9 += einsum("ia->ia", x6)
    .add 93 (.ein [(97, [0, 1])] [0, 1]) 1 1,
    -- 145: x105 = np.zeros((nocc[0], nocc[0]), dtype=types[float])
    .zeros 98 [0, 0],
    -- 146: x105 += einsum("ia,ja->ij", t1.aa, x6)
    .add 98 (.ein [(8, [0, 1]), (97, [2, 1])] [0, 2]) 1 1,
    -- 147: x106 = np.zeros((nocc[0], nocc[0], nvir[0], nvir[0]), dtype=types[float])
    .zeros 99 [0, 0, 1, 1],
    -- 148: x106 += einsum("ij,kjab->ikab", x105, t2.aaaa)
    .add 99 (.ein [(98, [0, 1]), (11, [2, 1, 3, 4])] [0, 2, 3, 4]) 1 1,
    -- 149: del x105
    .del 98,
    -- 150: x130 = np.zeros((nocc[0], nocc[0], nvir[0], nvir[0]), dtype=types[float])
    .zeros 100 [0, 0, 1, 1],
    -- 151: x130 += einsum("ijab->ijab", x106) * -1
    .add 100 (.ein [(99, [0, 1, 2, 3])] [0, 1, 2, 3]) (-1) 1,
    -- 152: del x106
    .del 99,
    -- 153: x123 = np.zeros((nocc[0], nocc[0], nocc[0], nvir[0]), dtype=types[float])
    .zeros 101 [0, 0, 0, 1],
    -- 154: x123 += einsum("ia,jkab->kjib", x6, t2.aaaa)
    .add 101 (.ein [(97, [0, 1]), (11, [2, 3, 1, 4])] [3, 2, 0, 4]) 1 1,
    -- 155: x126 += einsum("ijka->ikja", x123) * -1
    .add 89 (.ein [(101, [0, 1, 2, 3])] [0, 2, 1, 3]) (-1) 1,
    -- 156: del x123
    .del 101,
    -- 157: x299 += einsum("ia->ia", x6)
    .add 95 (.ein [(97, [0, 1])] [0, 1]) 1 1,
    -- 158: x306 = np.zeros((nocc[0], nvir[0]), dtype=types[float])
    .zeros 102 [0, 1],
    -- 159: x306 += einsum("ia->ia", x6)
    .add 102 (.ein [(97, [0, 1])] [0, 1]) 1 1,
    -- 160: del x6
    .del 97,
    -- 161: x7 = np.zeros((nocc[0], nocc[0], nvir[0], nvir[0]), dtype=types[float])
    .zeros 103 [0, 0, 1, 1],
    -- 162: x7 += einsum("iajb->jiab", v.aaaa.ovov) * -1
    .add 103 (.ein [(9, [0, 1, 2, 3])] [2, 0, 1, 3]) (-1) 1,
    -- 163: x7 += einsum("iajb->jiba", v.aaaa.ovov)
    .add 103 (.ein [(9, [0, 1, 2, 3])] [2, 0, 3, 1]) 1 1,
    -- 164: x8 = np.zeros((nocc[0], nvir[0]), dtype=types[float])
    .zeros 104 [0, 1],
    -- 165: x8 += einsum("ia,ijba->jb", t1.aa, x7)
    .add 104 (.ein [(8, [0, 1]), (103, [0, 2, 3, 1])] [2, 3]) 1 1,
    -- 166: x9 += einsum("ia->ia", x8) * -1
    .add 93 (.ein [(104, [0, 1])] [0, 1]) (-1) 1,
    -- 167: x306 += einsum("ia->ia", x8) * -1
    .add 102 (.ein [(104, [0, 1])] [0, 1]) (-1) 1,
    -- 168: del x8
    .del 104,
    -- 169: x307 += einsum("ia,ib->ab", t1.aa, x306) * -1
    .add 84 (.ein [(8, [0, 1]), (102, [0, 2])] [1, 2]) (-1) 1,
    -- 170: del x306
    .del 102,
    -- 171: x23 = np.zeros((nocc[0], nocc[0]), dtype=types[float])
    .zeros 105 [0, 0],
    -- 172: x23 += einsum("ijab,ikba->jk", t2.aaaa, x7)
    .add 105 (.ein [(11, [0, 1, 2, 3]), (103, [0, 4, 3, 2])] [1, 4]) 1 1,
    -- 173: x27 = np.zeros((nocc[0], nocc[0]), dtype=types[float])
    .zeros 106 [0, 0],
    -- 174: x27 += einsum("ij->ji", x23) * -1
    .add 106 (.ein [(105, [0, 1])] [1, 0]) (-1) 1,
    -- 175: x128 = np.zeros((nocc[0], nocc[0]), dtype=types[float])
    .zeros 107 [0, 0],
    -- 176: x128 += einsum("ij->ji", x23) * -1
    .add 107 (.ein [(105, [0, 1])] [1, 0]) (-1) 1,
    -- 177: del x23
    .del 105,
    -- 178: x113 = np.zeros((nvir[0], nvir[0]), dtype=types[float])
    .zeros 108 [1, 1],
    -- 179: x113 += einsum("ijab,ijca->bc", t2.aaaa, x7)
    .add 108 (.ein [(11, [0, 1, 2, 3]), (103, [0, 1, 4, 2])] [3, 4]) 1 1,
    -- 180: x116 = np.zeros((nvir[0], nvir[0]), dtype=types[float])
    .zeros 109 [1, 1],
    -- 181: x116 += einsum("ab->ab", x113) * -1
    .add 109 (.ein [(108, [0, 1])] [0, 1]) (-1) 1,
    -- 182: del x113
    .del 108,
    -- 183: x233 = np.zeros((nocc[0], nocc[1], nvir[0], nvir[1]), dtype=types[float])
    .zeros 110 [0, 4, 1, 5],
    -- 184: x233 += einsum("ijab,ikca->kjcb", t2.abab, x7)
    .add 110 (.ein [(14, [0, 1, 2, 3]), (103, [0, 4, 5, 2])] [4, 1, 5, 3]) 1 1,
    -- 185: x234 = np.zeros((nocc[0], nocc[1], nvir[0], nvir[1]), dtype=types[float])
    .zeros 111 [0, 4, 1, 5],
    -- 186: x234 += einsum("ijab->ijab", x233) * -1
    .add 111 (.ein [(110, [0, 1, 2, 3])] [0, 1, 2, 3]) (-1) 1,
    -- 187: del x233
    .del 110,
    -- 188: x301 = np.zeros((nbos, nocc[0], nvir[0]), dtype=types[float])
    .zeros 112 [2, 0, 1],
    -- 189: x301 += einsum("wia,ijba->wjb", u11.aa, x7)
    .add 112 (.ein [(18, [0, 1, 2]), (103, [1, 3, 4, 2])] [0, 3, 4]) 1 1,
    -- 190: del x7
    .del 103,
    -- 191: x302 = np.zeros((nbos, nocc[0], nvir[0]), dtype=types[float])
    .zeros 113 [2, 0, 1],
    -- 192: x302 += einsum("wia->wia", x301) * -1
    .add 113 (.ein [(112, [0, 1, 2])] [0, 1, 2]) (-1) 1,
    -- 193: del x301
    .del 112,
    -- 194: x9 += einsum("ia->ia", f.aa.ov)
    .add 93 (.ein [(19, [0, 1])] [0, 1]) 1 1,
    -- 195: x26 = np.zeros((nocc[0], nocc[0]), dtype=types[float])
    .zeros 114 [0, 0],
    -- 196: x26 += einsum("ia,ja->ij", t1.aa, x9)
    .add 114 (.ein [(8, [0, 1]), (93, [2, 1])] [0, 2]) 1 1,
    -- 197: x27 += einsum("ij->ji", x26)
    .add 106 (.ein [(114, [0, 1])] [1, 0]) 1 1,
    -- 198: del x26
    .del 114,
    -- 199: x265 = np.zeros((nocc[0], nocc[0], nocc[1], nvir[1]), dtype=types[float])
    .zeros 115 [0, 0, 4, 5],
    -- 200: x265 += einsum("ia,jkab->jikb", x9, t2.abab)
    .add 115 (.ein [(93, [0, 1]), (14, [2, 3, 1, 4])] [2, 0, 3, 4]) 1 1,
    -- 201: x271 = np.zeros((nocc[0], nocc[0], nocc[1], nvir[1]), dtype=types[float])
    .zeros 116 [0, 0, 4, 5],
    -- 202: x271 += einsum("ijka->jika", x265)
    .add 116 (.ein [(115, [0, 1, 2, 3])] [1, 0, 2, 3]) 1 1,
    -- 203: del x265
    .del 115,
    -- 204: t1new_bb = np.zeros((nocc[1], nvir[1]), dtype=types[float])
    .zeros 117 [4, 5],
    -- 205: t1new_bb += einsum("ia,ijab->jb", x9, t2.abab)
    .add 117 (.ein [(93, [0, 1]), (14, [0, 2, 1, 3])] [2, 3]) 1 1,
    -- 206: x10 = np.zeros((nocc[0], nocc[0], nvir[0], nvir[0]), dtype=types[float])
    .zeros 118 [0, 0, 1, 1],
    -- 207: x10 += einsum("ijab->jiab", t2.aaaa)
    .add 118 (.ein [(11, [0, 1, 2, 3])] [1, 0, 2, 3]) 1 1,
    -- 208: x10 += einsum("ijab->jiba", t2.aaaa) * -1
    .add 118 (.ein [(11, [0, 1, 2, 3])] [1, 0, 3, 2]) (-1) 1,
    -- 209: x108 = np.zeros((nocc[0], nocc[0], nvir[0], nvir[0]), dtype=types[float])
    .zeros 119 [0, 0, 1, 1],
    -- 210: x108 += einsum("ijab,kica->jkbc", x10, x107) * -1
    .add 119 (.ein [(118, [0, 1, 2, 3]), (85, [4, 0, 5, 2])] [1, 4, 3, 5]) (-1) 1,
    -- 211: del x107
    .del 85,
    -- 212: x130 += einsum("ijab->jiab", x108) * -1
    .add 100 (.ein [(119, [0, 1, 2, 3])] [1, 0, 2, 3]) (-1) 1,
    -- 213: del x108
    .del 119,
    -- 214: t1new_aa += einsum("ia,ijba->jb", x9, x10)
    .add 79 (.ein [(93, [0, 1]), (118, [0, 2, 3, 1])] [2, 3]) 1 1,
    -- 215: del x9
    .del 93,
    -- 216: x11 = np.zeros((nocc[1], nvir[1]), dtype=types[float])
    .zeros 120 [4, 5],
    -- 217: x11 += einsum("w,wia->ia", s1, g.bb.bov)
    .add 120 (.ein [(16, [0]), (6, [0, 1, 2])] [1, 2]) 1 1,
    -- 218: x15 = np.zeros((nocc[1], nvir[1]), dtype=types[float])
    .zeros 121 [4, 5],
    -- 219: x15 += einsum("ia->ia", x11)
    .add 121 (.ein [(120, [0, 1])] [0, 1]) 1 1,
    -- 220: x155 = np.zeros((nocc[1], nvir[1]), dtype=types[float])
    .zeros 122 [4, 5],
    -- 221: x155 += einsum("ia->ia", x11)
    .add 122 (.ein [(120, [0, 1])] [0, 1]) 1 1,
    -- 222: x298 = np.zeros((nocc[1], nvir[1]), dtype=types[float])
    .zeros 123 [4, 5],
    -- 223: x298 += einsum("ia->ia", x11)
    .add 123 (.ein [(120, [0, 1])] [0, 1]) 1 1,
    -- 224: x317 = np.zeros((nocc[1], nvir[1]), dtype=types[float])
    .zeros 124 [4, 5],
    -- 225: x317 += einsum("ia->ia", x11)
    .add 124 (.ein [(120, [0, 1])] [0, 1]) 1 1,
    -- 226: del x11
    .del 120,
    -- 227: x12 = np.zeros((nocc[1], nvir[1]), dtype=types[float])
    .zeros 125 [4, 5],
    -- 228: x12 += einsum("ia,iajb->jb", t1.aa, v.aabb.ovov)
    .add 125 (.ein [(8, [0, 1]), (13, [0, 1, 2, 3])] [2, 3]) 1 1,
    -- 229: x15 += einsum("ia->ia", x12)
    .add 121 (.ein [(125, [0, 1])] [0, 1]) 1 1,
    -- 230: x204 = np.zeros((nocc[1], nocc[1], nocc[1], nvir[1]), dtype=types[float])
    .zeros 126 [4, 4, 4, 5],
    -- 231: x204 += einsum("ia,jkba->jkib", x12, t2.bbbb)
    .add 126 (.ein [(125, [0, 1]), (20, [2, 3, 4, 1])] [2, 3, 0, 4]) 1 1,
    -- 232: x208 = np.zeros((nocc[1], nocc[1], nocc[1], nvir[1]), dtype=types[float])
    .zeros 127 [4, 4, 4, 5],
    -- 233: x208 += einsum("ijka->ikja", x204) * -1
    .add 127 (.ein [(126, [0, 1, 2, 3])] [0, 2, 1, 3]) (-1) 1,
    -- 234: del x204
    .del 126,
    -- 235: x219 = np.zeros((nocc[1], nocc[1]), dtype=types[float])
    .zeros 128 [4, 4],
    -- 236: x219 += einsum("ia,ja->ij", t1.bb, x12)
    .add 128 (.ein [(17, [0, 1]), (125, [2, 1])] [0, 2]) 1 1,
    -- 237: x220 = np.zeros((nocc[1], nocc[1]), dtype=types[float])
    .zeros 129 [4, 4],
    -- 238: x220 += einsum("ij->ij", x219)
    .add 129 (.ein [(128, [0, 1])] [0, 1]) 1 1,
    -- 239: del x219
    .del 128,
    -- 240: x298 += einsum("ia->ia", x12)
    .add 123 (.ein [(125, [0, 1])] [0, 1]) 1 1,
    -- 241: x315 = np.zeros((nocc[1], nvir[1]), dtype=types[float])
    .zeros 130 [4, 5],
    -- 242: x315 += einsum("ia->ia", x12)
    .add 130 (.ein [(125, [0, 1])] [0, 1]) 1 1,
    -- 243: del x12
    .del 125,
    -- 244: x13 = np.zeros((nocc[1], nocc[1], nvir[1], nvir[1]), dtype=types[float])
    .zeros 131 [4, 4, 5, 5],
    -- 245: x13 += einsum("iajb->jiab", v.bbbb.ovov) * -1
    .add 131 (.ein [(21, [0, 1, 2, 3])] [2, 0, 1, 3]) (-1) 1,
    -- 246: x13 += einsum("iajb->jiba", v.bbbb.ovov)
    .add 131 (.ein [(21, [0, 1, 2, 3])] [2, 0, 3, 1]) 1 1,
    -- 247: x14 = np.zeros((nocc[1], nvir[1]), dtype=types[float])
    .zeros 132 [4, 5],
    -- 248: x14 += einsum("ia,ijba->jb", t1.bb, x13)
    .add 132 (.ein [(17, [0, 1]), (131, [0, 2, 3, 1])] [2, 3]) 1 1,
    -- 249: x15 += einsum("ia->ia", x14) * -1
    .add 121 (.ein [(132, [0, 1])] [0, 1]) (-1) 1,
    -- 250: x315 += einsum("ia->ia", x14) * -1
    .add 130 (.ein [(132, [0, 1])] [0, 1]) (-1) 1,
    -- 251: del x14
    .del 132,
    -- 252: x316 = np.zeros((nvir[1], nvir[1]), dtype=types[float])
    .zeros 133 [5, 5],
    -- 253: x316 += einsum("ia,ib->ab", t1.bb, x315) * -1
    .add 133 (.ein [(17, [0, 1]), (130, [0, 2])] [1, 2]) (-1) 1,
    -- 254: del x315
    .del 130,
    -- 255: x48 = np.zeros((nocc[1], nocc[1]), dtype=types[float])
    .zeros 134 [4, 4],
    -- 256: x48 += einsum("ijab,ikba->kj", t2.bbbb, x13)
    .add 134 (.ein [(20, [0, 1, 2, 3]), (131, [0, 4, 3, 2])] [4, 1]) 1 1,
    -- 257: x52 = np.zeros((nocc[1], nocc[1]), dtype=types[float])
    .zeros 135 [4, 4],
    -- 258: x52 += einsum("ij->ij", x48) * -1
    .add 135 (.ein [(134, [0, 1])] [0, 1]) (-1) 1,
    -- 259: del x48
    .del 134,
    -- 260: x210 = np.zeros((nvir[1], nvir[1]), dtype=types[float])
    .zeros 136 [5, 5],
    -- 261: x210 += einsum("ijab,ijca->cb", t2.bbbb, x13)
    .add 136 (.ein [(20, [0, 1, 2, 3]), (131, [0, 1, 4, 2])] [4, 3]) 1 1,
    -- 262: x213 = np.zeros((nvir[1], nvir[1]), dtype=types[float])
    .zeros 137 [5, 5],
    -- 263: x213 += einsum("ab->ba", x210) * -1
    .add 137 (.ein [(136, [0, 1])] [1, 0]) (-1) 1,
    -- 264: del x210
    .del 136,
    -- 265: x215 = np.zeros((nocc[1], nocc[1]), dtype=types[float])
    .zeros 138 [4, 4],
    -- 266: x215 += einsum("ijab,ikab->kj", t2.bbbb, x13)
    .add 138 (.ein [(20, [0, 1, 2, 3]), (131, [0, 4, 2, 3])] [4, 1]) 1 1,
    -- 267: x217 = np.zeros((nocc[1], nocc[1]), dtype=types[float])
    .zeros 139 [4, 4],
    -- 268: x217 += einsum("ij->ij", x215) * -1
    .add 139 (.ein [(138, [0, 1])] [0, 1]) (-1) 1,
    -- 269: del x215
    .del 138,
    -- 270: x277 = np.zeros((nvir[1], nvir[1]), dtype=types[float])
    .zeros 140 [5, 5],
    -- 271: x277 += einsum("ijab,ijac->cb", t2.bbbb, x13)
    .add 140 (.ein [(20, [0, 1, 2, 3]), (131, [0, 1, 2, 4])] [4, 3]) 1 1,
    -- 272: x278 = np.zeros((nvir[1], nvir[1]), dtype=types[float])
    .zeros 141 [5, 5],
    -- 273: x278 += einsum("ab->ba", x277) * -1
    .add 141 (.ein [(140, [0, 1])] [1, 0]) (-1) 1,
    -- 274: x316 += einsum("ab->ba", x277) * -1
    .add 133 (.ein [(140, [0, 1])] [1, 0]) (-1) 1,
    -- 275: del x277
    .del 140,
    -- 276: x304 = np.zeros((nbos, nocc[1], nvir[1]), dtype=types[float])
    .zeros 142 [2, 4, 5],
    -- 277: x304 += einsum("wia,ijba->wjb", u11.bb, x13)
    .add 142 (.ein [(22, [0, 1, 2]), (131, [1, 3, 4, 2])] [0, 3, 4]) 1 1,
    -- 278: x305 = np.zeros((nbos, nocc[1], nvir[1]), dtype=types[float])
    .zeros 143 [2, 4, 5],
    -- 279: x305 += einsum("wia->wia", x304) * -1
    .add 143 (.ein [(142, [0, 1, 2])] [0, 1, 2]) (-1) 1,
    -- 280: del x304
    .del 142,
    -- 281: x15 += einsum("ia->ia", f.bb.ov)
    .add 121 (.ein [(23, [0, 1])] [0, 1]) 1 1,
    -- 282: x51 = np.zeros((nocc[1], nocc[1]), dtype=types[float])
    .zeros 144 [4, 4],
    -- 283: x51 += einsum("ia,ja->ij", t1.bb, x15)
    .add 144 (.ein [(17, [0, 1]), (121, [2, 1])] [0, 2]) 1 1,
    -- 284: x52 += einsum("ij->ji", x51)
    .add 135 (.ein [(144, [0, 1])] [1, 0]) 1 1,
    -- 285: del x51
    .del 144,
    -- 286: x286 = np.zeros((nocc[0], nocc[1], nocc[1], nvir[0]), dtype=types[float])
    .zeros 145 [0, 4, 4, 1],
    -- 287: x286 += einsum("ia,jkba->jkib", x15, t2.abab)
    .add 145 (.ein [(121, [0, 1]), (14, [2, 3, 4, 1])] [2, 3, 0, 4]) 1 1,
    -- 288: x289 += einsum("ijka->ikja", x286)
    .add 91 (.ein [(145, [0, 1, 2, 3])] [0, 2, 1, 3]) 1 1,
    -- 289: del x286
    .del 145,
    -- 290: t1new_aa += einsum("ia,jiba->jb", x15, t2.abab)
    .add 79 (.ein [(121, [0, 1]), (14, [2, 0, 3, 1])] [2, 3]) 1 1,
    -- 291: x16 = np.zeros((nocc[0], nocc[0], nvir[0], nvir[0]), dtype=types[float])
    .zeros 146 [0, 0, 1, 1],
    -- 292: x16 += einsum("iabj->ijba", v.aaaa.ovvo)
    .add 146 (.ein [(24, [0, 1, 2, 3])] [0, 3, 2, 1]) 1 1,
    -- 293: x16 -= einsum("ijab->ijab", v.aaaa.oovv)
    .add 146 (.ein [(25, [0, 1, 2, 3])] [0, 1, 2, 3]) (-1) 1,
    -- 294: x73 = np.zeros((nocc[0], nocc[0], nocc[0], nvir[0]), dtype=types[float])
    .zeros 147 [0, 0, 0, 1],
    -- 295: x73 += einsum("ia,jkba->ijkb", t1.aa, x16)
    .add 147 (.ein [(8, [0, 1]), (146, [2, 3, 4, 1])] [0, 2, 3, 4]) 1 1,
    -- 296: x74 = np.zeros((nocc[0], nocc[0], nocc[0], nvir[0]), dtype=types[float])
    .zeros 148 [0, 0, 0, 1],
    -- 297: x74 -= einsum("ijka->jika", x73)
    .add 148 (.ein [(147, [0, 1, 2, 3])] [1, 0, 2, 3]) (-1) 1,
    -- 298: del x73
    .del 147,
    -- 299: t1new_aa += einsum("ia,ijba->jb", t1.aa, x16)
    .add 79 (.ein [(8, [0, 1]), (146, [0, 2, 3, 1])] [2, 3]) 1 1,
    -- 300: u11new_aa = np.zeros((nbos, nocc[0], nvir[0]), dtype=types[float])
    .zeros 149 [2, 0, 1],
    -- 301: u11new_aa += einsum("wia,ijba->wjb", u11.aa, x16)
    .add 149 (.ein [(18, [0, 1, 2]), (146, [1, 3, 4, 2])] [0, 3, 4]) 1 1,
    -- 302: x17 = np.zeros((nbos, nocc[0], nocc[0]), dtype=types[float])
    .zeros 150 [2, 0, 0],
    -- 303: x17 += einsum("ia,wja->wji", t1.aa, g.aa.bov)
    .add 150 (.ein [(8, [0, 1]), (2, [2, 3, 1])] [2, 3, 0]) 1 1,
    -- 304: x18 = np.zeros((nbos, nocc[0], nocc[0]), dtype=types[float])
    .zeros 151 [2, 0, 0],
    -- 305: x18 += einsum("wij->wij", x17)
    .add 151 (.ein [(150, [0, 1, 2])] [0, 1, 2]) 1 1,
    -- 306: del x17
    .del 150,
    -- 307: x18 += einsum("wij->wij", g.aa.boo)
    .add 151 (.ein [(0, [0, 1, 2])] [0, 1, 2]) 1 1,
    -- 308: x82 = np.zeros((nbos, nocc[0], nvir[0]), dtype=types[float])
    .zeros 152 [2, 0, 1],
    -- 309: x82 += einsum("ia,wij->wja", t1.aa, x18)
    .add 152 (.ein [(8, [0, 1]), (151, [2, 0, 3])] [2, 3, 1]) 1 1,
    -- 310: x83 = np.zeros((nbos, nocc[0], nvir[0]), dtype=types[float])
    .zeros 153 [2, 0, 1],
    -- 311: x83 -= einsum("wia->wia", x82)
    .add 153 (.ein [(152, [0, 1, 2])] [0, 1, 2]) (-1) 1,
    -- 312: del x82
    .del 152,
    -- 313: t1new_aa -= einsum("wia,wij->ja", u11.aa, x18)
    .add 79 (.ein [(18, [0, 1, 2]), (151, [0, 1, 3])] [3, 2]) (-1) 1,
    -- 314: del x18
    .del 151,
    -- 315: x19 = np.zeros((nocc[0], nocc[0]), dtype=types[float])
    .zeros 154 [0, 0],
    -- 316: x19 += einsum("w,wij->ij", s1, g.aa.boo)
    .add 154 (.ein [(16, [0]), (0, [0, 1, 2])] [1, 2]) 1 1,
    -- 317: x27 += einsum("ij->ij", x19)
    .add 106 (.ein [(154, [0, 1])] [0, 1]) 1 1,
    -- 318: x77 = np.zeros((nocc[0], nocc[0]), dtype=types[float])
    .zeros 155 [0, 0],
    -- 319: x77 += einsum("ij->ji", x19)
    .add 155 (.ein [(154, [0, 1])] [1, 0]) 1 1,
    -- 320: del x19
    .del 154,
    -- 321: x20 = np.zeros((nocc[0], nocc[0]), dtype=types[float])
    .zeros 156 [0, 0],
    -- 322: x20 += einsum("wia,wja->ij", g.aa.bov, u11.aa)
    .add 156 (.ein [(2, [0, 1, 2]), (18, [0, 3, 2])] [1, 3]) 1 1,
    -- 323: x27 += einsum("ij->ij", x20)
    .add 106 (.ein [(156, [0, 1])] [0, 1]) 1 1,
    -- 324: x90 = np.zeros((nocc[0], nocc[0]), dtype=types[float])
    .zeros 157 [0, 0],
    -- 325: x90 += einsum("ij->ij", x20)
    .add 157 (.ein [(156, [0, 1])] [0, 1]) 1 1,
    -- 326: del x20
    .del 156,
    -- 327: x21 = np.zeros((nocc[0], nocc[0]), dtype=types[float])
    .zeros 158 [0, 0],
    -- 328: x21 += einsum("ia,jkia->jk", t1.bb, v.aabb.ooov)
    .add 158 (.ein [(17, [0, 1]), (15, [2, 3, 0, 1])] [2, 3]) 1 1,
    -- 329: x27 += einsum("ij->ij", x21)
    .add 106 (.ein [(158, [0, 1])] [0, 1]) 1 1,
    -- 330: x90 += einsum("ij->ij", x21)
    .add 157 (.ein [(158, [0, 1])] [0, 1]) 1 1,
    -- 331: del x21
    .del 158,
    -- 332: x91 = np.zeros((nocc[0], nocc[0], nvir[0], nvir[0]), dtype=types[float])
    .zeros 159 [0, 0, 1, 1],
    -- 333: x91 += einsum("ij,ikab->kjab", x90, t2.aaaa)
    .add 159 (.ein [(157, [0, 1]), (11, [0, 2, 3, 4])] [2, 1, 3, 4]) 1 1,
    -- 334: del x90
    .del 157,
    -- 335: x92 = np.zeros((nocc[0], nocc[0], nvir[0], nvir[0]), dtype=types[float])
    .zeros 160 [0, 0, 1, 1],
    -- 336: x92 -= einsum("ijab->ijba", x91)
    .add 160 (.ein [(159, [0, 1, 2, 3])] [0, 1, 3, 2]) (-1) 1,
    -- 337: del x91
    .del 159,
    -- 338: x22 = np.zeros((nocc[0], nocc[0]), dtype=types[float])
    .zeros 161 [0, 0],
    -- 339: x22 += einsum("ijab,kajb->ik", t2.abab, v.aabb.ovov)
    .add 161 (.ein [(14, [0, 1, 2, 3]), (13, [4, 2, 1, 3])] [0, 4]) 1 1,
    -- 340: x27 += einsum("ij->ji", x22)
    .add 106 (.ein [(161, [0, 1])] [1, 0]) 1 1,
    -- 341: x128 += einsum("ij->ji", x22)
    .add 107 (.ein [(161, [0, 1])] [1, 0]) 1 1,
    -- 342: del x22
    .del 161,
    -- 343: x24 = np.zeros((nocc[0], nocc[0], nocc[0], nvir[0]), dtype=types[float])
    .zeros 162 [0, 0, 0, 1],
    -- 344: x24 += einsum("ijka->ikja", v.aaaa.ooov)
    .add 162 (.ein [(10, [0, 1, 2, 3])] [0, 2, 1, 3]) 1 1,
    -- 345: x24 += einsum("ijka->kija", v.aaaa.ooov) * -1
    .add 162 (.ein [(10, [0, 1, 2, 3])] [2, 0, 1, 3]) (-1) 1,
    -- 346: x25 = np.zeros((nocc[0], nocc[0]), dtype=types[float])
    .zeros 163 [0, 0],
    -- 347: x25 += einsum("ia,ijka->jk", t1.aa, x24)
    .add 163 (.ein [(8, [0, 1]), (162, [0, 2, 3, 1])] [2, 3]) 1 1,
    -- 348: x27 += einsum("ij->ij", x25) * -1
    .add 106 (.ein [(163, [0, 1])] [0, 1]) (-1) 1,
    -- 349: x128 += einsum("ij->ij", x25) * -1
    .add 107 (.ein [(163, [0, 1])] [0, 1]) (-1) 1,
    -- 350: del x25
    .del 163,
    -- 351: x129 = np.zeros((nocc[0], nocc[0], nvir[0], nvir[0]), dtype=types[float])
    .zeros 164 [0, 0, 1, 1],
    -- 352: x129 += einsum("ij,ikab->kjab", x128, t2.aaaa)
    .add 164 (.ein [(107, [0, 1]), (11, [0, 2, 3, 4])] [2, 1, 3, 4]) 1 1,
    -- 353: del x128
    .del 107,
    -- 354: x130 += einsum("ijab->ijba", x129)
    .add 100 (.ein [(164, [0, 1, 2, 3])] [0, 1, 3, 2]) 1 1,
    -- 355: del x129
    .del 164,
    -- 356: x309 = np.zeros((nbos, nocc[0], nocc[0]), dtype=types[float])
    .zeros 165 [2, 0, 0],
    -- 357: x309 += einsum("wia,ijka->wjk", u11.aa, x24) * -1
    .add 165 (.ein [(18, [0, 1, 2]), (162, [1, 3, 4, 2])] [0, 3, 4]) (-1) 1,
    -- 358: del x24
    .del 162,
    -- 359: x27 += einsum("ij->ij", f.aa.oo)
    .add 106 (.ein [(26, [0, 1])] [0, 1]) 1 1,
    -- 360: x291 = np.zeros((nocc[0], nocc[1], nvir[0], nvir[1]), dtype=types[float])
    .zeros 166 [0, 4, 1, 5],
    -- 361: x291 += einsum("ij,ikab->jkab", x27, t2.abab)
    .add 166 (.ein [(106, [0, 1]), (14, [0, 2, 3, 4])] [1, 2, 3, 4]) 1 1,
    -- 362: t2new_baba = np.zeros((nocc[1], nocc[0], nvir[1], nvir[0]), dtype=types[float])
    .zeros 167 [4, 0, 5, 1],
    -- 363: t2new_baba += einsum("ijab->jiba", x291) * -1
    .add 167 (.ein [(166, [0, 1, 2, 3])] [1, 0, 3, 2]) (-1) 1,
    -- 364: t2new_abab = np.zeros((nocc[0], nocc[1], nvir[0], nvir[1]), dtype=types[float])
    .zeros 168 [0, 4, 1, 5],
    -- 365: t2new_abab += einsum("ijab->ijab", x291) * -1
    .add 168 (.ein [(166, [0, 1, 2, 3])] [0, 1, 2, 3]) (-1) 1,
    -- 366: del x291
    .del 166,
    -- 367: t1new_aa += einsum("ia,ij->ja", t1.aa, x27) * -1
    .add 79 (.ein [(8, [0, 1]), (106, [0, 2])] [2, 1]) (-1) 1,
    -- 368: u11new_aa += einsum("ij,wia->wja", x27, u11.aa) * -1
    .add 149 (.ein [(106, [0, 1]), (18, [2, 0, 3])] [2, 1, 3]) (-1) 1,
    -- 369: del x27
    .del 106,
    -- 370: x28 = np.zeros((nvir[0], nvir[0]), dtype=types[float])
    .zeros 169 [1, 1],
    -- 371: x28 += einsum("w,wab->ab", s1, g.aa.bvv)
    .add 169 (.ein [(16, [0]), (3, [0, 1, 2])] [1, 2]) 1 1,
    -- 372: x31 += einsum("ab->ab", x28)
    .add 82 (.ein [(169, [0, 1])] [0, 1]) 1 1,
    -- 373: x85 = np.zeros((nvir[0], nvir[0]), dtype=types[float])
    .zeros 170 [1, 1],
    -- 374: x85 += einsum("ab->ab", x28)
    .add 170 (.ein [(169, [0, 1])] [0, 1]) 1 1,
    -- 375: x275 += einsum("ab->ab", x28)
    .add 83 (.ein [(169, [0, 1])] [0, 1]) 1 1,
    -- 376: x307 += einsum("ab->ab", x28)
    .add 84 (.ein [(169, [0, 1])] [0, 1]) 1 1,
    -- 377: del x28
    .del 169,
    -- 378: x29 = np.zeros((nvir[0], nvir[0]), dtype=types[float])
    .zeros 171 [1, 1],
    -- 379: x29 += einsum("ia,iabc->bc", t1.bb, v.bbaa.ovvv)
    .add 171 (.ein [(17, [0, 1]), (27, [0, 1, 2, 3])] [2, 3]) 1 1,
    -- 380: x31 += einsum("ab->ab", x29)
    .add 82 (.ein [(171, [0, 1])] [0, 1]) 1 1,
    -- 381: x88 = np.zeros((nvir[0], nvir[0]), dtype=types[float])
    .zeros 172 [1, 1],
    -- 382: x88 -= einsum("ab->ba", x29)
    .add 172 (.ein [(171, [0, 1])] [1, 0]) (-1) 1,
    -- 383: x275 += einsum("ab->ab", x29)
    .add 83 (.ein [(171, [0, 1])] [0, 1]) 1 1,
    -- 384: x307 += einsum("ab->ab", x29)
    .add 84 (.ein [(171, [0, 1])] [0, 1]) 1 1,
    -- 385: del x29
    .del 171,
    -- 386: x31 += einsum("ab->ab", f.aa.vv)
    .add 82 (.ein [(28, [0, 1])] [0, 1]) 1 1,
    -- 387: t1new_aa += einsum("ia,ba->ib", t1.aa, x31)
    .add 79 (.ein [(8, [0, 1]), (82, [2, 1])] [0, 2]) 1 1,
    -- 388: del x31
    .del 82,
    -- 389: x32 = np.zeros((nbos), dtype=types[float])
    .zeros 173 [2],
    -- 390: x32 += einsum("ia,wia->w", t1.aa, g.aa.bov)
    .add 173 (.ein [(8, [0, 1]), (2, [2, 0, 1])] [2]) 1 1,
    -- 391: x34 = np.zeros((nbos), dtype=types[float])
    .zeros 174 [2],
    -- 392: x34 += einsum("w->w", x32)
    .add 174 (.ein [(173, [0])] [0]) 1 1,
    -- 393: del x32
    .del 173,
    -- 394: x33 = np.zeros((nbos), dtype=types[float])
    .zeros 175 [2],
    -- 395: x33 += einsum("ia,wia->w", t1.bb, g.bb.bov)
    .add 175 (.ein [(17, [0, 1]), (6, [2, 0, 1])] [2]) 1 1,
    -- 396: x34 += einsum("w->w", x33)
    .add 174 (.ein [(175, [0])] [0]) 1 1,
    -- 397: del x33
    .del 175,
    -- 398: x34 += einsum("w->w", G)
    .add 174 (.ein [(29, [0])] [0]) 1 1,
    -- 399: t1new_aa += einsum("w,wia->ia", x34, u11.aa)
    .add 79 (.ein [(174, [0]), (18, [0, 1, 2])] [1, 2]) 1 1,
    -- 400: t1new_bb += einsum("w,wia->ia", x34, u11.bb)
    .add 117 (.ein [(174, [0]), (22, [0, 1, 2])] [1, 2]) 1 1,
    -- 401: del x34
    .del 174,
    -- 402: x35 = np.zeros((nocc[1], nocc[1], nocc[1], nvir[1]), dtype=types[float])
    .zeros 176 [4, 4, 4, 5],
    -- 403: x35 += einsum("ia,jakb->ikjb", t1.bb, v.bbbb.ovov)
    .add 176 (.ein [(17, [0, 1]), (21, [2, 1, 3, 4])] [0, 3, 2, 4]) 1 1,
    -- 404: x36 = np.zeros((nocc[1], nocc[1], nocc[1], nvir[1]), dtype=types[float])
    .zeros 177 [4, 4, 4, 5],
    -- 405: x36 += einsum("ijka->ijka", x35)
    .add 177 (.ein [(176, [0, 1, 2, 3])] [0, 1, 2, 3]) 1 1,
    -- 406: x36 += einsum("ijka->ikja", x35) * -1
    .add 177 (.ein [(176, [0, 1, 2, 3])] [0, 2, 1, 3]) (-1) 1,
    -- 407: x151 = np.zeros((nocc[1], nocc[1], nocc[1], nvir[1]), dtype=types[float])
    .zeros 178 [4, 4, 4, 5],
    -- 408: x151 -= einsum("ijka->ijka", x35)
    .add 178 (.ein [(176, [0, 1, 2, 3])] [0, 1, 2, 3]) (-1) 1,
    -- 409: x151 += einsum("ijka->ikja", x35)
    .add 178 (.ein [(176, [0, 1, 2, 3])] [0, 2, 1, 3]) 1 1,
    -- 410: x184 = np.zeros((nocc[1], nocc[1], nocc[1], nocc[1]), dtype=types[float])
    .zeros 179 [4, 4, 4, 4],
    -- 411: x184 += einsum("ia,jkla->jilk", t1.bb, x35)
    .add 179 (.ein [(17, [0, 1]), (176, [2, 3, 4, 1])] [2, 0, 4, 3]) 1 1,
    -- 412: x185 = np.zeros((nocc[1], nocc[1], nvir[1], nvir[1]), dtype=types[float])
    .zeros 180 [4, 4, 5, 5],
    -- 413: x185 += einsum("ijab,klij->lkba", t2.bbbb, x184)
    .add 180 (.ein [(20, [0, 1, 2, 3]), (179, [4, 5, 0, 1])] [5, 4, 3, 2]) 1 1,
    -- 414: x189 = np.zeros((nocc[1], nocc[1], nvir[1], nvir[1]), dtype=types[float])
    .zeros 181 [4, 4, 5, 5],
    -- 415: x189 += einsum("ijab->ijab", x185)
    .add 181 (.ein [(180, [0, 1, 2, 3])] [0, 1, 2, 3]) 1 1,
    -- 416: del x185
    .del 180,
    -- 417: x225 = np.zeros((nocc[1], nocc[1], nocc[1], nvir[1]), dtype=types[float])
    .zeros 182 [4, 4, 4, 5],
    -- 418: x225 += einsum("ia,jkli->jkla", t1.bb, x184)
    .add 182 (.ein [(17, [0, 1]), (179, [2, 3, 4, 0])] [2, 3, 4, 1]) 1 1,
    -- 419: del x184
    .del 179,
    -- 420: x226 = np.zeros((nocc[1], nocc[1], nvir[1], nvir[1]), dtype=types[float])
    .zeros 183 [4, 4, 5, 5],
    -- 421: x226 += einsum("ia,jkib->jkab", t1.bb, x225)
    .add 183 (.ein [(17, [0, 1]), (182, [2, 3, 0, 4])] [2, 3, 1, 4]) 1 1,
    -- 422: del x225
    .del 182,
    -- 423: x230 = np.zeros((nocc[1], nocc[1], nvir[1], nvir[1]), dtype=types[float])
    .zeros 184 [4, 4, 5, 5],
    -- 424: x230 += einsum("ijab->ijab", x226)
    .add 184 (.ein [(183, [0, 1, 2, 3])] [0, 1, 2, 3]) 1 1,
    -- 425: del x226
    .del 183,
    -- 426: x282 = np.zeros((nocc[1], nocc[1], nocc[1], nvir[1]), dtype=types[float])
    .zeros 185 [4, 4, 4, 5],
    -- 427: x282 += einsum("ijka->jkia", x35) * -1
    .add 185 (.ein [(176, [0, 1, 2, 3])] [1, 2, 0, 3]) (-1) 1,
    -- 428: x282 += einsum("ijka->kjia", x35)
    .add 185 (.ein [(176, [0, 1, 2, 3])] [2, 1, 0, 3]) 1 1,
    -- 429: del x35
    .del 176,
    -- 430: x36 += einsum("ijka->jika", v.bbbb.ooov) * -1
    .add 177 (.ein [(30, [0, 1, 2, 3])] [1, 0, 2, 3]) (-1) 1,
    -- 431: x36 += einsum("ijka->jkia", v.bbbb.ooov)
    .add 177 (.ein [(30, [0, 1, 2, 3])] [1, 2, 0, 3]) 1 1,
    -- 432: t1new_bb += einsum("ijab,kija->kb", t2.bbbb, x36) * -1
    .add 117 (.ein [(20, [0, 1, 2, 3]), (177, [4, 0, 1, 2])] [4, 3]) (-1) 1,
    -- 433: del x36
    .del 177,
    -- 434: x37 = np.zeros((nocc[1], nvir[1], nvir[1], nvir[1]), dtype=types[float])
    .zeros 186 [4, 5, 5, 5],
    -- 435: x37 += einsum("iabc->ibac", v.bbbb.ovvv)
    .add 186 (.ein [(31, [0, 1, 2, 3])] [0, 2, 1, 3]) 1 1,
    -- 436: x37 += einsum("iabc->ibca", v.bbbb.ovvv) * -1
    .add 186 (.ein [(31, [0, 1, 2, 3])] [0, 2, 3, 1]) (-1) 1,
    -- 437: x55 = np.zeros((nvir[1], nvir[1]), dtype=types[float])
    .zeros 187 [5, 5],
    -- 438: x55 += einsum("ia,ibca->bc", t1.bb, x37)
    .add 187 (.ein [(17, [0, 1]), (186, [0, 2, 3, 1])] [2, 3]) 1 1,
    -- 439: x56 = np.zeros((nvir[1], nvir[1]), dtype=types[float])
    .zeros 188 [5, 5],
    -- 440: x56 += einsum("ab->ab", x55) * -1
    .add 188 (.ein [(187, [0, 1])] [0, 1]) (-1) 1,
    -- 441: x278 += einsum("ab->ab", x55) * -1
    .add 141 (.ein [(187, [0, 1])] [0, 1]) (-1) 1,
    -- 442: x316 += einsum("ab->ab", x55) * -1
    .add 133 (.ein [(187, [0, 1])] [0, 1]) (-1) 1,
    -- 443: del x55
    .del 187,
    -- 444: x195 = np.zeros((nocc[1], nocc[1], nvir[1], nvir[1]), dtype=types[float])
    .zeros 189 [4, 4, 5, 5],
    -- 445: x195 += einsum("ia,jbac->ijbc", t1.bb, x37)
    .add 189 (.ein [(17, [0, 1]), (186, [2, 3, 1, 4])] [0, 2, 3, 4]) 1 1,
    -- 446: t1new_bb += einsum("ijab,icba->jc", t2.bbbb, x37) * -1
    .add 117 (.ein [(20, [0, 1, 2, 3]), (186, [0, 4, 3, 2])] [1, 4]) (-1) 1,
    -- 447: del x37
    .del 186,
    -- 448: x38 = np.zeros((nocc[0], nocc[1], nocc[1], nvir[0]), dtype=types[float])
    .zeros 190 [0, 4, 4, 1],
    -- 449: x38 += einsum("ia,jbka->jikb", t1.bb, v.aabb.ovov)
    .add 190 (.ein [(17, [0, 1]), (13, [2, 3, 4, 1])] [2, 0, 4, 3]) 1 1,
    -- 450: x39 = np.zeros((nocc[0], nocc[1], nocc[1], nvir[0]), dtype=types[float])
    .zeros 191 [0, 4, 4, 1],
    -- 451: x39 += einsum("ijka->ikja", x38)
    .add 191 (.ein [(190, [0, 1, 2, 3])] [0, 2, 1, 3]) 1 1,
    -- 452: x203 = np.zeros((nocc[1], nocc[1], nocc[1], nvir[1]), dtype=types[float])
    .zeros 192 [4, 4, 4, 5],
    -- 453: x203 += einsum("ijab,ikla->kjlb", t2.abab, x38)
    .add 192 (.ein [(14, [0, 1, 2, 3]), (190, [0, 4, 5, 2])] [4, 1, 5, 3]) 1 1,
    -- 454: x208 += einsum("ijka->ikja", x203)
    .add 127 (.ein [(192, [0, 1, 2, 3])] [0, 2, 1, 3]) 1 1,
    -- 455: del x203
    .del 192,
    -- 456: x252 = np.zeros((nocc[0], nocc[1], nocc[1], nvir[0]), dtype=types[float])
    .zeros 193 [0, 4, 4, 1],
    -- 457: x252 += einsum("ijka->ikja", x38)
    .add 193 (.ein [(190, [0, 1, 2, 3])] [0, 2, 1, 3]) 1 1,
    -- 458: del x38
    .del 190,
    -- 459: x39 += einsum("iajk->ijka", v.aabb.ovoo)
    .add 191 (.ein [(32, [0, 1, 2, 3])] [0, 2, 3, 1]) 1 1,
    -- 460: x264 = np.zeros((nocc[0], nocc[0], nocc[1], nvir[1]), dtype=types[float])
    .zeros 194 [0, 0, 4, 5],
    -- 461: x264 += einsum("ijab,kjla->iklb", t2.abab, x39)
    .add 194 (.ein [(14, [0, 1, 2, 3]), (191, [4, 1, 5, 2])] [0, 4, 5, 3]) 1 1,
    -- 462: x271 += einsum("ijka->jika", x264) * -1
    .add 116 (.ein [(194, [0, 1, 2, 3])] [1, 0, 2, 3]) (-1) 1,
    -- 463: del x264
    .del 194,
    -- 464: x266 = np.zeros((nocc[0], nocc[0], nocc[1], nocc[1]), dtype=types[float])
    .zeros 195 [0, 0, 4, 4],
    -- 465: x266 += einsum("ia,jkla->ijkl", t1.aa, x39)
    .add 195 (.ein [(8, [0, 1]), (191, [2, 3, 4, 1])] [0, 2, 3, 4]) 1 1,
    -- 466: x267 = np.zeros((nocc[0], nocc[0], nocc[1], nocc[1]), dtype=types[float])
    .zeros 196 [0, 0, 4, 4],
    -- 467: x267 += einsum("ijkl->jikl", x266)
    .add 196 (.ein [(195, [0, 1, 2, 3])] [1, 0, 2, 3]) 1 1,
    -- 468: del x266
    .del 195,
    -- 469: t1new_bb += einsum("ijab,ijka->kb", t2.abab, x39) * -1
    .add 117 (.ein [(14, [0, 1, 2, 3]), (191, [0, 1, 4, 2])] [4, 3]) (-1) 1,
    -- 470: x40 = np.zeros((nocc[1], nocc[1], nvir[1], nvir[1]), dtype=types[float])
    .zeros 197 [4, 4, 5, 5],
    -- 471: x40 -= einsum("ijab->jiab", t2.bbbb)
    .add 197 (.ein [(20, [0, 1, 2, 3])] [1, 0, 2, 3]) (-1) 1,
    -- 472: x40 += einsum("ijab->jiba", t2.bbbb)
    .add 197 (.ein [(20, [0, 1, 2, 3])] [1, 0, 3, 2]) 1 1,
    -- 473: x165 = np.zeros((nbos, nocc[1], nvir[1]), dtype=types[float])
    .zeros 198 [2, 4, 5],
    -- 474: x165 += einsum("wia,ijba->wjb", g.bb.bov, x40)
    .add 198 (.ein [(6, [0, 1, 2]), (197, [1, 3, 4, 2])] [0, 3, 4]) 1 1,
    -- 475: x167 = np.zeros((nbos, nocc[1], nvir[1]), dtype=types[float])
    .zeros 199 [2, 4, 5],
    -- 476: x167 -= einsum("wia->wia", x165)
    .add 199 (.ein [(198, [0, 1, 2])] [0, 1, 2]) (-1) 1,
    -- 477: del x165
    .del 198,
    -- 478: t1new_bb += einsum("ia,ijba->jb", x15, x40) * -1
    .add 117 (.ein [(121, [0, 1]), (197, [0, 2, 3, 1])] [2, 3]) (-1) 1,
    -- 479: del x15
    .del 121,
    -- 480: x41 = np.zeros((nocc[1], nocc[1], nvir[1], nvir[1]), dtype=types[float])
    .zeros 200 [4, 4, 5, 5],
    -- 481: x41 += einsum("iabj->ijba", v.bbbb.ovvo)
    .add 200 (.ein [(33, [0, 1, 2, 3])] [0, 3, 2, 1]) 1 1,
    -- 482: x41 -= einsum("ijab->ijab", v.bbbb.oovv)
    .add 200 (.ein [(34, [0, 1, 2, 3])] [0, 1, 2, 3]) (-1) 1,
    -- 483: x147 = np.zeros((nocc[1], nocc[1], nvir[1], nvir[1]), dtype=types[float])
    .zeros 201 [4, 4, 5, 5],
    -- 484: x147 += einsum("ijab,ikcb->jkac", x40, x41)
    .add 201 (.ein [(197, [0, 1, 2, 3]), (200, [0, 4, 5, 3])] [1, 4, 2, 5]) 1 1,
    -- 485: x176 = np.zeros((nocc[1], nocc[1], nvir[1], nvir[1]), dtype=types[float])
    .zeros 202 [4, 4, 5, 5],
    -- 486: x176 -= einsum("ijab->ijab", x147)
    .add 202 (.ein [(201, [0, 1, 2, 3])] [0, 1, 2, 3]) (-1) 1,
    -- 487: del x147
    .del 201,
    -- 488: x157 = np.zeros((nocc[1], nocc[1], nocc[1], nvir[1]), dtype=types[float])
    .zeros 203 [4, 4, 4, 5],
    -- 489: x157 += einsum("ia,jkba->ijkb", t1.bb, x41)
    .add 203 (.ein [(17, [0, 1]), (200, [2, 3, 4, 1])] [0, 2, 3, 4]) 1 1,
    -- 490: x158 = np.zeros((nocc[1], nocc[1], nocc[1], nvir[1]), dtype=types[float])
    .zeros 204 [4, 4, 4, 5],
    -- 491: x158 -= einsum("ijka->jika", x157)
    .add 204 (.ein [(203, [0, 1, 2, 3])] [1, 0, 2, 3]) (-1) 1,
    -- 492: del x157
    .del 203,
    -- 493: t1new_bb += einsum("ia,ijba->jb", t1.bb, x41)
    .add 117 (.ein [(17, [0, 1]), (200, [0, 2, 3, 1])] [2, 3]) 1 1,
    -- 494: u11new_bb = np.zeros((nbos, nocc[1], nvir[1]), dtype=types[float])
    .zeros 205 [2, 4, 5],
    -- 495: u11new_bb += einsum("wia,ijba->wjb", u11.bb, x41)
    .add 205 (.ein [(22, [0, 1, 2]), (200, [1, 3, 4, 2])] [0, 3, 4]) 1 1,
    -- 496: del x41
    .del 200,
    -- 497: x42 = np.zeros((nbos, nocc[1], nocc[1]), dtype=types[float])
    .zeros 206 [2, 4, 4],
    -- 498: x42 += einsum("ia,wja->wji", t1.bb, g.bb.bov)
    .add 206 (.ein [(17, [0, 1]), (6, [2, 3, 1])] [2, 3, 0]) 1 1,
    -- 499: x43 = np.zeros((nbos, nocc[1], nocc[1]), dtype=types[float])
    .zeros 207 [2, 4, 4],
    -- 500: x43 += einsum("wij->wij", x42)
    .add 207 (.ein [(206, [0, 1, 2])] [0, 1, 2]) 1 1,
    -- 501: del x42
    .del 206,
    -- 502: x43 += einsum("wij->wij", g.bb.boo)
    .add 207 (.ein [(4, [0, 1, 2])] [0, 1, 2]) 1 1,
    -- 503: x166 = np.zeros((nbos, nocc[1], nvir[1]), dtype=types[float])
    .zeros 208 [2, 4, 5],
    -- 504: x166 += einsum("ia,wij->wja", t1.bb, x43)
    .add 208 (.ein [(17, [0, 1]), (207, [2, 0, 3])] [2, 3, 1]) 1 1,
    -- 505: x167 -= einsum("wia->wia", x166)
    .add 199 (.ein [(208, [0, 1, 2])] [0, 1, 2]) (-1) 1,
    -- 506: del x166
    .del 208,
    -- 507: t1new_bb -= einsum("wia,wij->ja", u11.bb, x43)
    .add 117 (.ein [(22, [0, 1, 2]), (207, [0, 1, 3])] [3, 2]) (-1) 1,
    -- 508: del x43
    .del 207,
    -- 509: x44 = np.zeros((nocc[1], nocc[1]), dtype=types[float])
    .zeros 209 [4, 4],
    -- 510: x44 += einsum("w,wij->ij", s1, g.bb.boo)
    .add 209 (.ein [(16, [0]), (4, [0, 1, 2])] [1, 2]) 1 1,
    -- 511: x52 += einsum("ij->ij", x44)
    .add 135 (.ein [(209, [0, 1])] [0, 1]) 1 1,
    -- 512: x161 = np.zeros((nocc[1], nocc[1]), dtype=types[float])
    .zeros 210 [4, 4],
    -- 513: x161 += einsum("ij->ji", x44)
    .add 210 (.ein [(209, [0, 1])] [1, 0]) 1 1,
    -- 514: del x44
    .del 209,
    -- 515: x45 = np.zeros((nocc[1], nocc[1]), dtype=types[float])
    .zeros 211 [4, 4],
    -- 516: x45 += einsum("wia,wja->ij", g.bb.bov, u11.bb)
    .add 211 (.ein [(6, [0, 1, 2]), (22, [0, 3, 2])] [1, 3]) 1 1,
    -- 517: x52 += einsum("ij->ij", x45)
    .add 135 (.ein [(211, [0, 1])] [0, 1]) 1 1,
    -- 518: x174 = np.zeros((nocc[1], nocc[1]), dtype=types[float])
    .zeros 212 [4, 4],
    -- 519: x174 += einsum("ij->ij", x45)
    .add 212 (.ein [(211, [0, 1])] [0, 1]) 1 1,
    -- 520: del x45
    .del 211,
    -- 521: x46 = np.zeros((nocc[1], nocc[1]), dtype=types[float])
    .zeros 213 [4, 4],
    -- 522: x46 += einsum("ia,iajk->jk", t1.aa, v.aabb.ovoo)
    .add 213 (.ein [(8, [0, 1]), (32, [0, 1, 2, 3])] [2, 3]) 1 1,
    -- 523: x52 += einsum("ij->ij", x46)
    .add 135 (.ein [(213, [0, 1])] [0, 1]) 1 1,
    -- 524: x174 += einsum("ij->ij", x46)
    .add 212 (.ein [(213, [0, 1])] [0, 1]) 1 1,
    -- 525: del x46
    .del 213,
    -- 526: x175 = np.zeros((nocc[1], nocc[1], nvir[1], nvir[1]), dtype=types[float])
    .zeros 214 [4, 4, 5, 5],
    -- 527: x175 += einsum("ij,ikab->kjab", x174, t2.bbbb)
    .add 214 (.ein [(212, [0, 1]), (20, [0, 2, 3, 4])] [2, 1, 3, 4]) 1 1,
    -- 528: del x174
    .del 212,
    -- 529: x176 -= einsum("ijab->ijba", x175)
    .add 202 (.ein [(214, [0, 1, 2, 3])] [0, 1, 3, 2]) (-1) 1,
    -- 530: del x175
    .del 214,
    -- 531: x47 = np.zeros((nocc[1], nocc[1]), dtype=types[float])
    .zeros 215 [4, 4],
    -- 532: x47 += einsum("ijab,iakb->jk", t2.abab, v.aabb.ovov)
    .add 215 (.ein [(14, [0, 1, 2, 3]), (13, [0, 2, 4, 3])] [1, 4]) 1 1,
    -- 533: x52 += einsum("ij->ji", x47)
    .add 135 (.ein [(215, [0, 1])] [1, 0]) 1 1,
    -- 534: x220 += einsum("ij->ij", x47)
    .add 129 (.ein [(215, [0, 1])] [0, 1]) 1 1,
    -- 535: del x47
    .del 215,
    -- 536: x221 = np.zeros((nocc[1], nocc[1], nvir[1], nvir[1]), dtype=types[float])
    .zeros 216 [4, 4, 5, 5],
    -- 537: x221 += einsum("ij,jkab->kiab", x220, t2.bbbb)
    .add 216 (.ein [(129, [0, 1]), (20, [1, 2, 3, 4])] [2, 0, 3, 4]) 1 1,
    -- 538: del x220
    .del 129,
    -- 539: x222 = np.zeros((nocc[1], nocc[1], nvir[1], nvir[1]), dtype=types[float])
    .zeros 217 [4, 4, 5, 5],
    -- 540: x222 += einsum("ijab->jiba", x221) * -1
    .add 217 (.ein [(216, [0, 1, 2, 3])] [1, 0, 3, 2]) (-1) 1,
    -- 541: del x221
    .del 216,
    -- 542: x49 = np.zeros((nocc[1], nocc[1], nocc[1], nvir[1]), dtype=types[float])
    .zeros 218 [4, 4, 4, 5],
    -- 543: x49 += einsum("ijka->ikja", v.bbbb.ooov)
    .add 218 (.ein [(30, [0, 1, 2, 3])] [0, 2, 1, 3]) 1 1,
    -- 544: x49 += einsum("ijka->kija", v.bbbb.ooov) * -1
    .add 218 (.ein [(30, [0, 1, 2, 3])] [2, 0, 1, 3]) (-1) 1,
    -- 545: x50 = np.zeros((nocc[1], nocc[1]), dtype=types[float])
    .zeros 219 [4, 4],
    -- 546: x50 += einsum("ia,ijka->jk", t1.bb, x49)
    .add 219 (.ein [(17, [0, 1]), (218, [0, 2, 3, 1])] [2, 3]) 1 1,
    -- 547: x52 += einsum("ij->ij", x50) * -1
    .add 135 (.ein [(219, [0, 1])] [0, 1]) (-1) 1,
    -- 548: del x50
    .del 219,
    -- 549: x216 = np.zeros((nocc[1], nocc[1]), dtype=types[float])
    .zeros 220 [4, 4],
    -- 550: x216 += einsum("ia,jika->jk", t1.bb, x49)
    .add 220 (.ein [(17, [0, 1]), (218, [2, 0, 3, 1])] [2, 3]) 1 1,
    -- 551: x217 += einsum("ij->ij", x216) * -1
    .add 139 (.ein [(220, [0, 1])] [0, 1]) (-1) 1,
    -- 552: del x216
    .del 220,
    -- 553: x218 = np.zeros((nocc[1], nocc[1], nvir[1], nvir[1]), dtype=types[float])
    .zeros 221 [4, 4, 5, 5],
    -- 554: x218 += einsum("ij,ikab->kjab", x217, t2.bbbb)
    .add 221 (.ein [(139, [0, 1]), (20, [0, 2, 3, 4])] [2, 1, 3, 4]) 1 1,
    -- 555: del x217
    .del 139,
    -- 556: x222 += einsum("ijab->ijba", x218) * -1
    .add 217 (.ein [(221, [0, 1, 2, 3])] [0, 1, 3, 2]) (-1) 1,
    -- 557: del x218
    .del 221,
    -- 558: x318 = np.zeros((nbos, nocc[1], nocc[1]), dtype=types[float])
    .zeros 222 [2, 4, 4],
    -- 559: x318 += einsum("wia,ijka->wjk", u11.bb, x49) * -1
    .add 222 (.ein [(22, [0, 1, 2]), (218, [1, 3, 4, 2])] [0, 3, 4]) (-1) 1,
    -- 560: del x49
    .del 218,
    -- 561: x52 += einsum("ij->ij", f.bb.oo)
    .add 135 (.ein [(35, [0, 1])] [0, 1]) 1 1,
    -- 562: x292 = np.zeros((nocc[0], nocc[1], nvir[0], nvir[1]), dtype=types[float])
    .zeros 223 [0, 4, 1, 5],
    -- 563: x292 += einsum("ij,kiab->kjab", x52, t2.abab)
    .add 223 (.ein [(135, [0, 1]), (14, [2, 0, 3, 4])] [2, 1, 3, 4]) 1 1,
    -- 564: t2new_baba += einsum("ijab->jiba", x292) * -1
    .add 167 (.ein [(223, [0, 1, 2, 3])] [1, 0, 3, 2]) (-1) 1,
    -- 565: t2new_abab += einsum("ijab->ijab", x292) * -1
    .add 168 (.ein [(223, [0, 1, 2, 3])] [0, 1, 2, 3]) (-1) 1,
    -- 566: del x292
    .del 223,
    -- 567: t1new_bb += einsum("ia,ij->ja", t1.bb, x52) * -1
    .add 117 (.ein [(17, [0, 1]), (135, [0, 2])] [2, 1]) (-1) 1,
    -- 568: u11new_bb += einsum("ij,wia->wja", x52, u11.bb) * -1
    .add 205 (.ein [(135, [0, 1]), (22, [2, 0, 3])] [2, 1, 3]) (-1) 1,
    -- 569: del x52
    .del 135,
    -- 570: x53 = np.zeros((nvir[1], nvir[1]), dtype=types[float])
    .zeros 224 [5, 5],
    -- 571: x53 += einsum("w,wab->ab", s1, g.bb.bvv)
    .add 224 (.ein [(16, [0]), (7, [0, 1, 2])] [1, 2]) 1 1,
    -- 572: x56 += einsum("ab->ab", x53)
    .add 188 (.ein [(224, [0, 1])] [0, 1]) 1 1,
    -- 573: x169 = np.zeros((nvir[1], nvir[1]), dtype=types[float])
    .zeros 225 [5, 5],
    -- 574: x169 += einsum("ab->ab", x53)
    .add 225 (.ein [(224, [0, 1])] [0, 1]) 1 1,
    -- 575: x278 += einsum("ab->ab", x53)
    .add 141 (.ein [(224, [0, 1])] [0, 1]) 1 1,
    -- 576: x316 += einsum("ab->ab", x53)
    .add 133 (.ein [(224, [0, 1])] [0, 1]) 1 1,
    -- 577: del x53
    .del 224,
    -- 578: x54 = np.zeros((nvir[1], nvir[1]), dtype=types[float])
    .zeros 226 [5, 5],
    -- 579: x54 += einsum("ia,iabc->bc", t1.aa, v.aabb.ovvv)
    .add 226 (.ein [(8, [0, 1]), (36, [0, 1, 2, 3])] [2, 3]) 1 1,
    -- 580: x56 += einsum("ab->ab", x54)
    .add 188 (.ein [(226, [0, 1])] [0, 1]) 1 1,
    -- 581: x172 = np.zeros((nvir[1], nvir[1]), dtype=types[float])
    .zeros 227 [5, 5],
    -- 582: x172 -= einsum("ab->ba", x54)
    .add 227 (.ein [(226, [0, 1])] [1, 0]) (-1) 1,
    -- 583: x278 += einsum("ab->ab", x54)
    .add 141 (.ein [(226, [0, 1])] [0, 1]) 1 1,
    -- 584: x316 += einsum("ab->ab", x54)
    .add 133 (.ein [(226, [0, 1])] [0, 1]) 1 1,
    -- 585: del x54
    .del 226,
    -- 586: x56 += einsum("ab->ab", f.bb.vv)
    .add 188 (.ein [(37, [0, 1])] [0, 1]) 1 1,
    -- 587: t1new_bb += einsum("ia,ba->ib", t1.bb, x56)
    .add 117 (.ein [(17, [0, 1]), (188, [2, 1])] [0, 2]) 1 1,
    -- 588: del x56
    .del 188,
    -- 589: x57 = np.zeros((nocc[0], nocc[0], nvir[0], nvir[0]), dtype=types[float])
    .zeros 228 [0, 0, 1, 1],
    -- 590: x57 += einsum("ia,bjca->ijbc", t1.aa, v.aaaa.vovv)
    .add 228 (.ein [(8, [0, 1]), (38, [2, 3, 4, 1])] [0, 3, 2, 4]) 1 1,
    -- 591: x92 -= einsum("ijab->ijab", x57)
    .add 160 (.ein [(228, [0, 1, 2, 3])] [0, 1, 2, 3]) (-1) 1,
    -- 592: del x57
    .del 228,
    -- 593: x58 = np.zeros((nocc[0], nocc[0], nvir[0], nvir[0]), dtype=types[float])
    .zeros 229 [0, 0, 1, 1],
    -- 594: x58 += einsum("ijab,jbck->ikac", t2.abab, v.bbaa.ovvo)
    .add 229 (.ein [(14, [0, 1, 2, 3]), (39, [1, 3, 4, 5])] [0, 5, 2, 4]) 1 1,
    -- 595: x92 += einsum("ijab->ijab", x58)
    .add 160 (.ein [(229, [0, 1, 2, 3])] [0, 1, 2, 3]) 1 1,
    -- 596: del x58
    .del 229,
    -- 597: x59 = np.zeros((nocc[0], nocc[1], nvir[0], nvir[1]), dtype=types[float])
    .zeros 230 [0, 4, 1, 5],
    -- 598: x59 += einsum("ia,jbca->ijcb", t1.aa, v.bbaa.ovvv)
    .add 230 (.ein [(8, [0, 1]), (27, [2, 3, 4, 1])] [0, 2, 4, 3]) 1 1,
    -- 599: x60 = np.zeros((nocc[0], nocc[0], nvir[0], nvir[0]), dtype=types[float])
    .zeros 231 [0, 0, 1, 1],
    -- 600: x60 += einsum("ijab,kjcb->kiac", t2.abab, x59)
    .add 231 (.ein [(14, [0, 1, 2, 3]), (230, [4, 1, 5, 3])] [4, 0, 2, 5]) 1 1,
    -- 601: x92 -= einsum("ijab->ijab", x60)
    .add 160 (.ein [(231, [0, 1, 2, 3])] [0, 1, 2, 3]) (-1) 1,
    -- 602: del x60
    .del 231,
    -- 603: x241 = np.zeros((nocc[0], nocc[1], nvir[0], nvir[1]), dtype=types[float])
    .zeros 232 [0, 4, 1, 5],
    -- 604: x241 += einsum("ijab->ijab", x59)
    .add 232 (.ein [(230, [0, 1, 2, 3])] [0, 1, 2, 3]) 1 1,
    -- 605: del x59
    .del 230,
    -- 606: x61 = np.zeros((nocc[0], nocc[0], nvir[0], nvir[0]), dtype=types[float])
    .zeros 233 [0, 0, 1, 1],
    -- 607: x61 += einsum("ijab->jiab", t2.aaaa)
    .add 233 (.ein [(11, [0, 1, 2, 3])] [1, 0, 2, 3]) 1 1,
    -- 608: x61 -= einsum("ijab->jiba", t2.aaaa)
    .add 233 (.ein [(11, [0, 1, 2, 3])] [1, 0, 3, 2]) (-1) 1,
    -- 609: x62 = np.zeros((nocc[0], nocc[0], nvir[0], nvir[0]), dtype=types[float])
    .zeros 234 [0, 0, 1, 1],
    -- 610: x62 += einsum("ijab,ikbc->jkac", x16, x61)
    .add 234 (.ein [(146, [0, 1, 2, 3]), (233, [0, 4, 3, 5])] [1, 4, 2, 5]) 1 1,
    -- 611: del x16
    .del 146,
    -- 612: del x61
    .del 233,
    -- 613: x92 -= einsum("ijab->jiba", x62)
    .add 160 (.ein [(234, [0, 1, 2, 3])] [1, 0, 3, 2]) (-1) 1,
    -- 614: del x62
    .del 234,
    -- 615: x63 = np.zeros((nocc[0], nocc[0], nvir[0], nvir[0]), dtype=types[float])
    .zeros 235 [0, 0, 1, 1],
    -- 616: x63 -= einsum("iajb->jiab", v.aaaa.ovov)
    .add 235 (.ein [(9, [0, 1, 2, 3])] [2, 0, 1, 3]) (-1) 1,
    -- 617: x63 += einsum("iajb->jiba", v.aaaa.ovov)
    .add 235 (.ein [(9, [0, 1, 2, 3])] [2, 0, 3, 1]) 1 1,
    -- 618: x64 = np.zeros((nocc[0], nocc[0], nvir[0], nvir[0]), dtype=types[float])
    .zeros 236 [0, 0, 1, 1],
    -- 619: x64 += einsum("ijab,ikcb->jkac", t2.aaaa, x63)
    .add 236 (.ein [(11, [0, 1, 2, 3]), (235, [0, 4, 5, 3])] [1, 4, 2, 5]) 1 1,
    -- 620: x65 = np.zeros((nocc[0], nocc[0], nvir[0], nvir[0]), dtype=types[float])
    .zeros 237 [0, 0, 1, 1],
    -- 621: x65 -= einsum("ijab,kica->jkbc", t2.aaaa, x64)
    .add 237 (.ein [(11, [0, 1, 2, 3]), (236, [4, 0, 5, 2])] [1, 4, 3, 5]) (-1) 1,
    -- 622: x92 -= einsum("ijab->ijab", x65)
    .add 160 (.ein [(237, [0, 1, 2, 3])] [0, 1, 2, 3]) (-1) 1,
    -- 623: del x65
    .del 237,
    -- 624: x98 = np.zeros((nocc[0], nocc[0], nvir[0], nvir[0]), dtype=types[float])
    .zeros 238 [0, 0, 1, 1],
    -- 625: x98 -= einsum("ijab,kicb->jkac", t2.aaaa, x64)
    .add 238 (.ein [(11, [0, 1, 2, 3]), (236, [4, 0, 5, 3])] [1, 4, 2, 5]) (-1) 1,
    -- 626: del x64
    .del 236,
    -- 627: x102 += einsum("ijab->jiba", x98)
    .add 76 (.ein [(238, [0, 1, 2, 3])] [1, 0, 3, 2]) 1 1,
    -- 628: del x98
    .del 238,
    -- 629: x70 = np.zeros((nocc[0], nvir[0]), dtype=types[float])
    .zeros 239 [0, 1],
    -- 630: x70 += einsum("ia,ijba->jb", t1.aa, x63)
    .add 239 (.ein [(8, [0, 1]), (235, [0, 2, 3, 1])] [2, 3]) 1 1,
    -- 631: x71 -= einsum("ia->ia", x70)
    .add 94 (.ein [(239, [0, 1])] [0, 1]) (-1) 1,
    -- 632: x299 -= einsum("ia->ia", x70)
    .add 95 (.ein [(239, [0, 1])] [0, 1]) (-1) 1,
    -- 633: del x70
    .del 239,
    -- 634: x96 = np.zeros((nocc[0], nocc[0], nvir[0], nvir[0]), dtype=types[float])
    .zeros 240 [0, 0, 1, 1],
    -- 635: x96 += einsum("ijab,ikca->jkbc", t2.aaaa, x63)
    .add 240 (.ein [(11, [0, 1, 2, 3]), (235, [0, 4, 5, 2])] [1, 4, 3, 5]) 1 1,
    -- 636: x97 = np.zeros((nocc[0], nocc[0], nvir[0], nvir[0]), dtype=types[float])
    .zeros 241 [0, 0, 1, 1],
    -- 637: x97 -= einsum("ijab,kica->jkbc", t2.aaaa, x96)
    .add 241 (.ein [(11, [0, 1, 2, 3]), (240, [4, 0, 5, 2])] [1, 4, 3, 5]) (-1) 1,
    -- 638: del x96
    .del 240,
    -- 639: x102 += einsum("ijab->ijab", x97)
    .add 76 (.ein [(241, [0, 1, 2, 3])] [0, 1, 2, 3]) 1 1,
    -- 640: del x97
    .del 241,
    -- 641: x223 = np.zeros((nocc[0], nocc[1], nvir[0], nvir[1]), dtype=types[float])
    .zeros 242 [0, 4, 1, 5],
    -- 642: x223 += einsum("ijab,ikca->kjcb", t2.abab, x63)
    .add 242 (.ein [(14, [0, 1, 2, 3]), (235, [0, 4, 5, 2])] [4, 1, 5, 3]) 1 1,
    -- 643: del x63
    .del 235,
    -- 644: x224 = np.zeros((nocc[1], nocc[1], nvir[1], nvir[1]), dtype=types[float])
    .zeros 243 [4, 4, 5, 5],
    -- 645: x224 -= einsum("ijab,ikac->jkbc", t2.abab, x223)
    .add 243 (.ein [(14, [0, 1, 2, 3]), (242, [0, 4, 2, 5])] [1, 4, 3, 5]) (-1) 1,
    -- 646: del x223
    .del 242,
    -- 647: t2new_bbbb = np.zeros((nocc[1], nocc[1], nvir[1], nvir[1]), dtype=types[float])
    .zeros 244 [4, 4, 5, 5],
    -- 648: t2new_bbbb -= einsum("ijab->jiab", x224)
    .add 244 (.ein [(243, [0, 1, 2, 3])] [1, 0, 2, 3]) (-1) 1,
    -- 649: t2new_bbbb += einsum("ijab->ijab", x224)
    .add 244 (.ein [(243, [0, 1, 2, 3])] [0, 1, 2, 3]) 1 1,
    -- 650: del x224
    .del 243,
    -- 651: x66 = np.zeros((nocc[0], nocc[0], nocc[0], nvir[0]), dtype=types[float])
    .zeros 245 [0, 0, 0, 1],
    -- 652: x66 += einsum("ijab,kljb->ikla", t2.abab, v.aabb.ooov)
    .add 245 (.ein [(14, [0, 1, 2, 3]), (15, [4, 5, 1, 3])] [0, 4, 5, 2]) 1 1,
    -- 653: x74 += einsum("ijka->jika", x66)
    .add 148 (.ein [(245, [0, 1, 2, 3])] [1, 0, 2, 3]) 1 1,
    -- 654: del x66
    .del 245,
    -- 655: x68 = np.zeros((nocc[0], nocc[0], nvir[0], nvir[0]), dtype=types[float])
    .zeros 246 [0, 0, 1, 1],
    -- 656: x68 -= einsum("ijab->jiab", t2.aaaa)
    .add 246 (.ein [(11, [0, 1, 2, 3])] [1, 0, 2, 3]) (-1) 1,
    -- 657: x68 += einsum("ijab->jiba", t2.aaaa)
    .add 246 (.ein [(11, [0, 1, 2, 3])] [1, 0, 3, 2]) 1 1,
    -- 658: x69 = np.zeros((nocc[0], nocc[0], nocc[0], nvir[0]), dtype=types[float])
    .zeros 247 [0, 0, 0, 1],
    -- 659: x69 += einsum("ijka,klba->ijlb", x67, x68)
    .add 247 (.ein [(72, [0, 1, 2, 3]), (246, [2, 4, 5, 3])] [0, 1, 4, 5]) 1 1,
    -- 660: del x67
    .del 72,
    -- 661: x74 += einsum("ijka->jika", x69)
    .add 148 (.ein [(247, [0, 1, 2, 3])] [1, 0, 2, 3]) 1 1,
    -- 662: del x69
    .del 247,
    -- 663: x81 = np.zeros((nbos, nocc[0], nvir[0]), dtype=types[float])
    .zeros 248 [2, 0, 1],
    -- 664: x81 += einsum("wia,ijba->wjb", g.aa.bov, x68)
    .add 248 (.ein [(2, [0, 1, 2]), (246, [1, 3, 4, 2])] [0, 3, 4]) 1 1,
    -- 665: del x68
    .del 246,
    -- 666: x83 -= einsum("wia->wia", x81)
    .add 153 (.ein [(248, [0, 1, 2])] [0, 1, 2]) (-1) 1,
    -- 667: del x81
    .del 248,
    -- 668: x71 += einsum("ia->ia", f.aa.ov)
    .add 94 (.ein [(19, [0, 1])] [0, 1]) 1 1,
    -- 669: x72 = np.zeros((nocc[0], nocc[0], nocc[0], nvir[0]), dtype=types[float])
    .zeros 249 [0, 0, 0, 1],
    -- 670: x72 += einsum("ia,jkab->jkib", x71, t2.aaaa)
    .add 249 (.ein [(94, [0, 1]), (11, [2, 3, 1, 4])] [2, 3, 0, 4]) 1 1,
    -- 671: x74 += einsum("ijka->kjia", x72)
    .add 148 (.ein [(249, [0, 1, 2, 3])] [2, 1, 0, 3]) 1 1,
    -- 672: del x72
    .del 249,
    -- 673: x76 = np.zeros((nocc[0], nocc[0]), dtype=types[float])
    .zeros 250 [0, 0],
    -- 674: x76 += einsum("ia,ja->ij", t1.aa, x71)
    .add 250 (.ein [(8, [0, 1]), (94, [2, 1])] [0, 2]) 1 1,
    -- 675: del x71
    .del 94,
    -- 676: x77 += einsum("ij->ij", x76)
    .add 155 (.ein [(250, [0, 1])] [0, 1]) 1 1,
    -- 677: del x76
    .del 250,
    -- 678: x74 -= einsum("ijak->ijka", v.aaaa.oovo)
    .add 148 (.ein [(40, [0, 1, 2, 3])] [0, 1, 3, 2]) (-1) 1,
    -- 679: x75 = np.zeros((nocc[0], nocc[0], nvir[0], nvir[0]), dtype=types[float])
    .zeros 251 [0, 0, 1, 1],
    -- 680: x75 += einsum("ia,ijkb->jkab", t1.aa, x74)
    .add 251 (.ein [(8, [0, 1]), (148, [0, 2, 3, 4])] [2, 3, 1, 4]) 1 1,
    -- 681: del x74
    .del 148,
    -- 682: x92 += einsum("ijab->ijab", x75)
    .add 160 (.ein [(251, [0, 1, 2, 3])] [0, 1, 2, 3]) 1 1,
    -- 683: del x75
    .del 251,
    -- 684: x77 += einsum("ij->ji", f.aa.oo)
    .add 155 (.ein [(26, [0, 1])] [1, 0]) 1 1,
    -- 685: x78 = np.zeros((nocc[0], nocc[0], nvir[0], nvir[0]), dtype=types[float])
    .zeros 252 [0, 0, 1, 1],
    -- 686: x78 += einsum("ij,jkab->kiab", x77, t2.aaaa)
    .add 252 (.ein [(155, [0, 1]), (11, [1, 2, 3, 4])] [2, 0, 3, 4]) 1 1,
    -- 687: del x77
    .del 155,
    -- 688: x92 += einsum("ijab->jiba", x78)
    .add 160 (.ein [(252, [0, 1, 2, 3])] [1, 0, 3, 2]) 1 1,
    -- 689: del x78
    .del 252,
    -- 690: x79 = np.zeros((nbos, nocc[0], nvir[0]), dtype=types[float])
    .zeros 253 [2, 0, 1],
    -- 691: x79 += einsum("ia,wba->wib", t1.aa, g.aa.bvv)
    .add 253 (.ein [(8, [0, 1]), (3, [2, 3, 1])] [2, 0, 3]) 1 1,
    -- 692: x83 += einsum("wia->wia", x79)
    .add 153 (.ein [(253, [0, 1, 2])] [0, 1, 2]) 1 1,
    -- 693: del x79
    .del 253,
    -- 694: x80 = np.zeros((nbos, nocc[0], nvir[0]), dtype=types[float])
    .zeros 254 [2, 0, 1],
    -- 695: x80 += einsum("wia,jiba->wjb", g.bb.bov, t2.abab)
    .add 254 (.ein [(6, [0, 1, 2]), (14, [3, 1, 4, 2])] [0, 3, 4]) 1 1,
    -- 696: x83 += einsum("wia->wia", x80)
    .add 153 (.ein [(254, [0, 1, 2])] [0, 1, 2]) 1 1,
    -- 697: del x80
    .del 254,
    -- 698: x83 += einsum("wai->wia", g.aa.bvo)
    .add 153 (.ein [(1, [0, 1, 2])] [0, 2, 1]) 1 1,
    -- 699: x84 = np.zeros((nocc[0], nocc[0], nvir[0], nvir[0]), dtype=types[float])
    .zeros 255 [0, 0, 1, 1],
    -- 700: x84 += einsum("wia,wjb->ijab", u11.aa, x83)
    .add 255 (.ein [(18, [0, 1, 2]), (153, [0, 3, 4])] [1, 3, 2, 4]) 1 1,
    -- 701: x92 += einsum("ijab->jiba", x84)
    .add 160 (.ein [(255, [0, 1, 2, 3])] [1, 0, 3, 2]) 1 1,
    -- 702: del x84
    .del 255,
    -- 703: x294 = np.zeros((nocc[0], nocc[1], nvir[0], nvir[1]), dtype=types[float])
    .zeros 256 [0, 4, 1, 5],
    -- 704: x294 += einsum("wia,wjb->jiba", u11.bb, x83)
    .add 256 (.ein [(22, [0, 1, 2]), (153, [0, 3, 4])] [3, 1, 4, 2]) 1 1,
    -- 705: del x83
    .del 153,
    -- 706: t2new_baba += einsum("ijab->jiba", x294)
    .add 167 (.ein [(256, [0, 1, 2, 3])] [1, 0, 3, 2]) 1 1,
    -- 707: t2new_abab += einsum("ijab->ijab", x294)
    .add 168 (.ein [(256, [0, 1, 2, 3])] [0, 1, 2, 3]) 1 1,
    -- 708: del x294
    .del 256,
    -- 709: x85 += einsum("ab->ab", f.aa.vv)
    .add 170 (.ein [(28, [0, 1])] [0, 1]) 1 1,
    -- 710: x86 = np.zeros((nocc[0], nocc[0], nvir[0], nvir[0]), dtype=types[float])
    .zeros 257 [0, 0, 1, 1],
    -- 711: x86 += einsum("ab,ijbc->ijca", x85, t2.aaaa)
    .add 257 (.ein [(170, [0, 1]), (11, [2, 3, 1, 4])] [2, 3, 4, 0]) 1 1,
    -- 712: del x85
    .del 170,
    -- 713: x92 -= einsum("ijab->jiba", x86)
    .add 160 (.ein [(257, [0, 1, 2, 3])] [1, 0, 3, 2]) (-1) 1,
    -- 714: del x86
    .del 257,
    -- 715: x87 = np.zeros((nvir[0], nvir[0]), dtype=types[float])
    .zeros 258 [1, 1],
    -- 716: x87 += einsum("wia,wib->ab", g.aa.bov, u11.aa)
    .add 258 (.ein [(2, [0, 1, 2]), (18, [0, 1, 3])] [2, 3]) 1 1,
    -- 717: x88 += einsum("ab->ab", x87)
    .add 172 (.ein [(258, [0, 1])] [0, 1]) 1 1,
    -- 718: x89 = np.zeros((nocc[0], nocc[0], nvir[0], nvir[0]), dtype=types[float])
    .zeros 259 [0, 0, 1, 1],
    -- 719: x89 += einsum("ab,ijac->ijcb", x88, t2.aaaa)
    .add 259 (.ein [(172, [0, 1]), (11, [2, 3, 0, 4])] [2, 3, 4, 1]) 1 1,
    -- 720: del x88
    .del 172,
    -- 721: x92 -= einsum("ijab->jiab", x89)
    .add 160 (.ein [(259, [0, 1, 2, 3])] [1, 0, 2, 3]) (-1) 1,
    -- 722: del x89
    .del 259,
    -- 723: t2new_aaaa = np.zeros((nocc[0], nocc[0], nvir[0], nvir[0]), dtype=types[float])
    .zeros 260 [0, 0, 1, 1],
    -- 724: t2new_aaaa += einsum("ijab->ijab", x92)
    .add 260 (.ein [(160, [0, 1, 2, 3])] [0, 1, 2, 3]) 1 1,
    -- 725: t2new_aaaa -= einsum("ijab->ijba", x92)
    .add 260 (.ein [(160, [0, 1, 2, 3])] [0, 1, 3, 2]) (-1) 1,
    -- 726: t2new_aaaa -= einsum("ijab->jiab", x92)
    .add 260 (.ein [(160, [0, 1, 2, 3])] [1, 0, 2, 3]) (-1) 1,
    -- 727: t2new_aaaa += einsum("ijab->jiba", x92)
    .add 260 (.ein [(160, [0, 1, 2, 3])] [1, 0, 3, 2]) 1 1,
    -- 728: del x92
    .del 160,
    -- 729: x275 += einsum("ab->ba", x87) * -1
    .add 83 (.ein [(258, [0, 1])] [1, 0]) (-1) 1,
    -- 730: x307 += einsum("ab->ba", x87) * -1
    .add 84 (.ein [(258, [0, 1])] [1, 0]) (-1) 1,
    -- 731: del x87
    .del 258,
    -- 732: x99 = np.zeros((nocc[1], nocc[1], nvir[1], nvir[1]), dtype=types[float])
    .zeros 261 [4, 4, 5, 5],
    -- 733: x99 -= einsum("iajb->jiab", v.bbbb.ovov)
    .add 261 (.ein [(21, [0, 1, 2, 3])] [2, 0, 1, 3]) (-1) 1,
    -- 734: x99 += einsum("iajb->jiba", v.bbbb.ovov)
    .add 261 (.ein [(21, [0, 1, 2, 3])] [2, 0, 3, 1]) 1 1,
    -- 735: x100 = np.zeros((nocc[0], nocc[1], nvir[0], nvir[1]), dtype=types[float])
    .zeros 262 [0, 4, 1, 5],
    -- 736: x100 += einsum("ijab,jkcb->ikac", t2.abab, x99)
    .add 262 (.ein [(14, [0, 1, 2, 3]), (261, [1, 4, 5, 3])] [0, 4, 2, 5]) 1 1,
    -- 737: x101 = np.zeros((nocc[0], nocc[0], nvir[0], nvir[0]), dtype=types[float])
    .zeros 263 [0, 0, 1, 1],
    -- 738: x101 -= einsum("ijab,kjcb->ikac", t2.abab, x100)
    .add 263 (.ein [(14, [0, 1, 2, 3]), (262, [4, 1, 5, 3])] [0, 4, 2, 5]) (-1) 1,
    -- 739: del x100
    .del 262,
    -- 740: x102 += einsum("ijab->ijab", x101)
    .add 76 (.ein [(263, [0, 1, 2, 3])] [0, 1, 2, 3]) 1 1,
    -- 741: del x101
    .del 263,
    -- 742: t2new_aaaa += einsum("ijab->ijab", x102)
    .add 260 (.ein [(76, [0, 1, 2, 3])] [0, 1, 2, 3]) 1 1,
    -- 743: t2new_aaaa -= einsum("ijab->ijba", x102)
    .add 260 (.ein [(76, [0, 1, 2, 3])] [0, 1, 3, 2]) (-1) 1,
    -- 744: del x102
    .del 76,
    -- 745: x148 = np.zeros((nocc[1], nocc[1], nvir[1], nvir[1]), dtype=types[float])
    .zeros 264 [4, 4, 5, 5],
    -- 746: x148 += einsum("ijab,ikcb->jkac", t2.bbbb, x99)
    .add 264 (.ein [(20, [0, 1, 2, 3]), (261, [0, 4, 5, 3])] [1, 4, 2, 5]) 1 1,
    -- 747: x149 = np.zeros((nocc[1], nocc[1], nvir[1], nvir[1]), dtype=types[float])
    .zeros 265 [4, 4, 5, 5],
    -- 748: x149 -= einsum("ijab,kica->jkbc", t2.bbbb, x148)
    .add 265 (.ein [(20, [0, 1, 2, 3]), (264, [4, 0, 5, 2])] [1, 4, 3, 5]) (-1) 1,
    -- 749: x176 -= einsum("ijab->ijab", x149)
    .add 202 (.ein [(265, [0, 1, 2, 3])] [0, 1, 2, 3]) (-1) 1,
    -- 750: del x149
    .del 265,
    -- 751: x229 = np.zeros((nocc[1], nocc[1], nvir[1], nvir[1]), dtype=types[float])
    .zeros 266 [4, 4, 5, 5],
    -- 752: x229 -= einsum("ijab,kicb->jkac", t2.bbbb, x148)
    .add 266 (.ein [(20, [0, 1, 2, 3]), (264, [4, 0, 5, 3])] [1, 4, 2, 5]) (-1) 1,
    -- 753: del x148
    .del 264,
    -- 754: x230 += einsum("ijab->ijab", x229)
    .add 184 (.ein [(266, [0, 1, 2, 3])] [0, 1, 2, 3]) 1 1,
    -- 755: del x229
    .del 266,
    -- 756: x154 = np.zeros((nocc[1], nvir[1]), dtype=types[float])
    .zeros 267 [4, 5],
    -- 757: x154 += einsum("ia,ijba->jb", t1.bb, x99)
    .add 267 (.ein [(17, [0, 1]), (261, [0, 2, 3, 1])] [2, 3]) 1 1,
    -- 758: x155 -= einsum("ia->ia", x154)
    .add 122 (.ein [(267, [0, 1])] [0, 1]) (-1) 1,
    -- 759: x298 -= einsum("ia->ia", x154)
    .add 123 (.ein [(267, [0, 1])] [0, 1]) (-1) 1,
    -- 760: del x154
    .del 267,
    -- 761: x227 = np.zeros((nocc[1], nocc[1], nvir[1], nvir[1]), dtype=types[float])
    .zeros 268 [4, 4, 5, 5],
    -- 762: x227 += einsum("ijab,ikca->jkbc", t2.bbbb, x99)
    .add 268 (.ein [(20, [0, 1, 2, 3]), (261, [0, 4, 5, 2])] [1, 4, 3, 5]) 1 1,
    -- 763: del x99
    .del 261,
    -- 764: x228 = np.zeros((nocc[1], nocc[1], nvir[1], nvir[1]), dtype=types[float])
    .zeros 269 [4, 4, 5, 5],
    -- 765: x228 -= einsum("ijab,kica->jkbc", t2.bbbb, x227)
    .add 269 (.ein [(20, [0, 1, 2, 3]), (268, [4, 0, 5, 2])] [1, 4, 3, 5]) (-1) 1,
    -- 766: del x227
    .del 268,
    -- 767: x230 += einsum("ijab->jiba", x228)
    .add 184 (.ein [(269, [0, 1, 2, 3])] [1, 0, 3, 2]) 1 1,
    -- 768: del x228
    .del 269,
    -- 769: t2new_bbbb += einsum("ijab->ijab", x230)
    .add 244 (.ein [(184, [0, 1, 2, 3])] [0, 1, 2, 3]) 1 1,
    -- 770: t2new_bbbb -= einsum("ijab->ijba", x230)
    .add 244 (.ein [(184, [0, 1, 2, 3])] [0, 1, 3, 2]) (-1) 1,
    -- 771: del x230
    .del 184,
    -- 772: x103 = np.zeros((nocc[0], nocc[0], nocc[0], nocc[0]), dtype=types[float])
    .zeros 270 [0, 0, 0, 0],
    -- 773: x103 += einsum("ia,jkla->ijlk", t1.aa, v.aaaa.ooov)
    .add 270 (.ein [(8, [0, 1]), (10, [2, 3, 4, 1])] [0, 2, 4, 3]) 1 1,
    -- 774: x104 = np.zeros((nocc[0], nocc[0], nvir[0], nvir[0]), dtype=types[float])
    .zeros 271 [0, 0, 1, 1],
    -- 775: x104 += einsum("ijab,kijl->klab", t2.aaaa, x103)
    .add 271 (.ein [(11, [0, 1, 2, 3]), (270, [4, 0, 1, 5])] [4, 5, 2, 3]) 1 1,
    -- 776: x130 += einsum("ijab->ijab", x104)
    .add 100 (.ein [(271, [0, 1, 2, 3])] [0, 1, 2, 3]) 1 1,
    -- 777: del x104
    .del 271,
    -- 778: x118 = np.zeros((nocc[0], nocc[0], nocc[0], nvir[0]), dtype=types[float])
    .zeros 272 [0, 0, 0, 1],
    -- 779: x118 += einsum("ia,jkil->jkla", t1.aa, x103)
    .add 272 (.ein [(8, [0, 1]), (270, [2, 3, 0, 4])] [2, 3, 4, 1]) 1 1,
    -- 780: del x103
    .del 270,
    -- 781: x126 += einsum("ijka->ijka", x118)
    .add 89 (.ein [(272, [0, 1, 2, 3])] [0, 1, 2, 3]) 1 1,
    -- 782: del x118
    .del 272,
    -- 783: x109 = np.zeros((nocc[0], nocc[0], nvir[0], nvir[0]), dtype=types[float])
    .zeros 273 [0, 0, 1, 1],
    -- 784: x109 += einsum("ijab,kcjb->ikac", t2.abab, v.aabb.ovov)
    .add 273 (.ein [(14, [0, 1, 2, 3]), (13, [4, 5, 1, 3])] [0, 4, 2, 5]) 1 1,
    -- 785: x110 = np.zeros((nocc[0], nocc[0], nvir[0], nvir[0]), dtype=types[float])
    .zeros 274 [0, 0, 1, 1],
    -- 786: x110 += einsum("ijab->jiab", t2.aaaa) * -1
    .add 274 (.ein [(11, [0, 1, 2, 3])] [1, 0, 2, 3]) (-1) 1,
    -- 787: x110 += einsum("ijab->jiba", t2.aaaa)
    .add 274 (.ein [(11, [0, 1, 2, 3])] [1, 0, 3, 2]) 1 1,
    -- 788: x111 = np.zeros((nocc[0], nocc[0], nvir[0], nvir[0]), dtype=types[float])
    .zeros 275 [0, 0, 1, 1],
    -- 789: x111 += einsum("ijab,jkbc->ikac", x109, x110)
    .add 275 (.ein [(273, [0, 1, 2, 3]), (274, [1, 4, 3, 5])] [0, 4, 2, 5]) 1 1,
    -- 790: del x109
    .del 273,
    -- 791: x130 += einsum("ijab->jiba", x111) * -1
    .add 100 (.ein [(275, [0, 1, 2, 3])] [1, 0, 3, 2]) (-1) 1,
    -- 792: del x111
    .del 275,
    -- 793: x284 = np.zeros((nocc[0], nocc[1], nocc[1], nvir[0]), dtype=types[float])
    .zeros 276 [0, 4, 4, 1],
    -- 794: x284 += einsum("ijab,iklb->jkla", x110, x39)
    .add 276 (.ein [(274, [0, 1, 2, 3]), (191, [0, 4, 5, 3])] [1, 4, 5, 2]) 1 1,
    -- 795: del x110
    .del 274,
    -- 796: del x39
    .del 191,
    -- 797: x289 += einsum("ijka->ijka", x284) * -1
    .add 91 (.ein [(276, [0, 1, 2, 3])] [0, 1, 2, 3]) (-1) 1,
    -- 798: del x284
    .del 276,
    -- 799: x112 = np.zeros((nvir[0], nvir[0]), dtype=types[float])
    .zeros 277 [1, 1],
    -- 800: x112 += einsum("ijab,icjb->ac", t2.abab, v.aabb.ovov)
    .add 277 (.ein [(14, [0, 1, 2, 3]), (13, [0, 4, 1, 3])] [2, 4]) 1 1,
    -- 801: x116 += einsum("ab->ab", x112)
    .add 109 (.ein [(277, [0, 1])] [0, 1]) 1 1,
    -- 802: x275 += einsum("ab->ab", x112) * -1
    .add 83 (.ein [(277, [0, 1])] [0, 1]) (-1) 1,
    -- 803: x307 += einsum("ab->ab", x112) * -1
    .add 84 (.ein [(277, [0, 1])] [0, 1]) (-1) 1,
    -- 804: del x112
    .del 277,
    -- 805: x114 = np.zeros((nocc[0], nvir[0], nvir[0], nvir[0]), dtype=types[float])
    .zeros 278 [0, 1, 1, 1],
    -- 806: x114 += einsum("iabc->ibac", v.aaaa.ovvv) * -1
    .add 278 (.ein [(12, [0, 1, 2, 3])] [0, 2, 1, 3]) (-1) 1,
    -- 807: x114 += einsum("iabc->ibca", v.aaaa.ovvv)
    .add 278 (.ein [(12, [0, 1, 2, 3])] [0, 2, 3, 1]) 1 1,
    -- 808: x115 = np.zeros((nvir[0], nvir[0]), dtype=types[float])
    .zeros 279 [1, 1],
    -- 809: x115 += einsum("ia,ibca->bc", t1.aa, x114)
    .add 279 (.ein [(8, [0, 1]), (278, [0, 2, 3, 1])] [2, 3]) 1 1,
    -- 810: del x114
    .del 278,
    -- 811: x116 += einsum("ab->ab", x115) * -1
    .add 109 (.ein [(279, [0, 1])] [0, 1]) (-1) 1,
    -- 812: del x115
    .del 279,
    -- 813: x117 = np.zeros((nocc[0], nocc[0], nvir[0], nvir[0]), dtype=types[float])
    .zeros 280 [0, 0, 1, 1],
    -- 814: x117 += einsum("ab,ijbc->ijca", x116, t2.aaaa)
    .add 280 (.ein [(109, [0, 1]), (11, [2, 3, 1, 4])] [2, 3, 4, 0]) 1 1,
    -- 815: del x116
    .del 109,
    -- 816: x130 += einsum("ijab->jiab", x117)
    .add 100 (.ein [(280, [0, 1, 2, 3])] [1, 0, 2, 3]) 1 1,
    -- 817: del x117
    .del 280,
    -- 818: x119 = np.zeros((nocc[0], nocc[0], nocc[0], nvir[0]), dtype=types[float])
    .zeros 281 [0, 0, 0, 1],
    -- 819: x119 += einsum("ijab,kbca->jikc", t2.aaaa, v.aaaa.ovvv)
    .add 281 (.ein [(11, [0, 1, 2, 3]), (12, [4, 3, 5, 2])] [1, 0, 4, 5]) 1 1,
    -- 820: x126 += einsum("ijka->ikja", x119)
    .add 89 (.ein [(281, [0, 1, 2, 3])] [0, 2, 1, 3]) 1 1,
    -- 821: del x119
    .del 281,
    -- 822: x120 = np.zeros((nocc[0], nocc[0], nvir[0], nvir[0]), dtype=types[float])
    .zeros 282 [0, 0, 1, 1],
    -- 823: x120 += einsum("ia,jbca->ijcb", t1.aa, v.aaaa.ovvv)
    .add 282 (.ein [(8, [0, 1]), (12, [2, 3, 4, 1])] [0, 2, 4, 3]) 1 1,
    -- 824: x121 = np.zeros((nocc[0], nocc[0], nocc[0], nvir[0]), dtype=types[float])
    .zeros 283 [0, 0, 0, 1],
    -- 825: x121 += einsum("ia,jkba->ijkb", t1.aa, x120)
    .add 283 (.ein [(8, [0, 1]), (282, [2, 3, 4, 1])] [0, 2, 3, 4]) 1 1,
    -- 826: del x120
    .del 282,
    -- 827: x126 += einsum("ijka->ikja", x121)
    .add 89 (.ein [(283, [0, 1, 2, 3])] [0, 2, 1, 3]) 1 1,
    -- 828: del x121
    .del 283,
    -- 829: x124 = np.zeros((nocc[0], nocc[0], nocc[0], nvir[0]), dtype=types[float])
    .zeros 284 [0, 0, 0, 1],
    -- 830: x124 += einsum("ijka->ikja", v.aaaa.ooov) * -1
    .add 284 (.ein [(10, [0, 1, 2, 3])] [0, 2, 1, 3]) (-1) 1,
    -- 831: x124 += einsum("ijka->kija", v.aaaa.ooov)
    .add 284 (.ein [(10, [0, 1, 2, 3])] [2, 0, 1, 3]) 1 1,
    -- 832: x125 = np.zeros((nocc[0], nocc[0], nocc[0], nvir[0]), dtype=types[float])
    .zeros 285 [0, 0, 0, 1],
    -- 833: x125 += einsum("ijab,ikla->jklb", x10, x124)
    .add 285 (.ein [(118, [0, 1, 2, 3]), (284, [0, 4, 5, 2])] [1, 4, 5, 3]) 1 1,
    -- 834: del x124
    .del 284,
    -- 835: x126 += einsum("ijka->ijka", x125)
    .add 89 (.ein [(285, [0, 1, 2, 3])] [0, 1, 2, 3]) 1 1,
    -- 836: del x125
    .del 285,
    -- 837: x127 = np.zeros((nocc[0], nocc[0], nvir[0], nvir[0]), dtype=types[float])
    .zeros 286 [0, 0, 1, 1],
    -- 838: x127 += einsum("ia,jikb->jkab", t1.aa, x126)
    .add 286 (.ein [(8, [0, 1]), (89, [2, 0, 3, 4])] [2, 3, 1, 4]) 1 1,
    -- 839: del x126
    .del 89,
    -- 840: x130 += einsum("ijab->ijab", x127)
    .add 100 (.ein [(286, [0, 1, 2, 3])] [0, 1, 2, 3]) 1 1,
    -- 841: del x127
    .del 286,
    -- 842: t2new_aaaa += einsum("ijab->ijab", x130) * -1
    .add 260 (.ein [(100, [0, 1, 2, 3])] [0, 1, 2, 3]) (-1) 1,
    -- 843: t2new_aaaa += einsum("ijab->ijba", x130)
    .add 260 (.ein [(100, [0, 1, 2, 3])] [0, 1, 3, 2]) 1 1,
    -- 844: t2new_aaaa += einsum("ijab->jiab", x130)
    .add 260 (.ein [(100, [0, 1, 2, 3])] [1, 0, 2, 3]) 1 1,
    -- 845: t2new_aaaa += einsum("ijab->jiba", x130) * -1
    .add 260 (.ein [(100, [0, 1, 2, 3])] [1, 0, 3, 2]) (-1) 1,
    -- 846: del x130
    .del 100,
    -- 847: x131 = np.zeros((nocc[0], nvir[0], nvir[0], nvir[0]), dtype=types[float])
    .zeros 287 [0, 1, 1, 1],
    -- 848: x131 += einsum("ia,bcda->ibdc", t1.aa, v.aaaa.vvvv)
    .add 287 (.ein [(8, [0, 1]), (41, [2, 3, 4, 1])] [0, 2, 4, 3]) 1 1,
    -- 849: x132 = np.zeros((nocc[0], nocc[0], nvir[0], nvir[0]), dtype=types[float])
    .zeros 288 [0, 0, 1, 1],
    -- 850: x132 += einsum("ia,jbca->ijbc", t1.aa, x131)
    .add 288 (.ein [(8, [0, 1]), (287, [2, 3, 4, 1])] [0, 2, 3, 4]) 1 1,
    -- 851: del x131
    .del 287,
    -- 852: x139 = np.zeros((nocc[0], nocc[0], nvir[0], nvir[0]), dtype=types[float])
    .zeros 289 [0, 0, 1, 1],
    -- 853: x139 += einsum("ijab->ijab", x132)
    .add 289 (.ein [(288, [0, 1, 2, 3])] [0, 1, 2, 3]) 1 1,
    -- 854: del x132
    .del 288,
    -- 855: x133 = np.zeros((nocc[0], nocc[0], nocc[0], nocc[0]), dtype=types[float])
    .zeros 290 [0, 0, 0, 0],
    -- 856: x133 += einsum("ijab,kbla->ijlk", t2.aaaa, v.aaaa.ovov)
    .add 290 (.ein [(11, [0, 1, 2, 3]), (9, [4, 3, 5, 2])] [0, 1, 5, 4]) 1 1,
    -- 857: x134 += einsum("ijkl->jilk", x133)
    .add 77 (.ein [(290, [0, 1, 2, 3])] [1, 0, 3, 2]) 1 1,
    -- 858: x135 = np.zeros((nocc[0], nocc[0], nvir[0], nvir[0]), dtype=types[float])
    .zeros 291 [0, 0, 1, 1],
    -- 859: x135 += einsum("ijab,klji->klab", t2.aaaa, x134)
    .add 291 (.ein [(11, [0, 1, 2, 3]), (77, [4, 5, 1, 0])] [4, 5, 2, 3]) 1 1,
    -- 860: del x134
    .del 77,
    -- 861: x139 += einsum("ijab->jiab", x135)
    .add 289 (.ein [(291, [0, 1, 2, 3])] [1, 0, 2, 3]) 1 1,
    -- 862: del x135
    .del 291,
    -- 863: x136 = np.zeros((nocc[0], nocc[0], nocc[0], nocc[0]), dtype=types[float])
    .zeros 292 [0, 0, 0, 0],
    -- 864: x136 += einsum("ijkl->lkji", x133)
    .add 292 (.ein [(290, [0, 1, 2, 3])] [3, 2, 1, 0]) 1 1,
    -- 865: del x133
    .del 290,
    -- 866: x136 += einsum("ijkl->kilj", v.aaaa.oooo)
    .add 292 (.ein [(42, [0, 1, 2, 3])] [2, 0, 3, 1]) 1 1,
    -- 867: x137 = np.zeros((nocc[0], nocc[0], nocc[0], nvir[0]), dtype=types[float])
    .zeros 293 [0, 0, 0, 1],
    -- 868: x137 += einsum("ia,ijkl->jkla", t1.aa, x136)
    .add 293 (.ein [(8, [0, 1]), (292, [0, 2, 3, 4])] [2, 3, 4, 1]) 1 1,
    -- 869: del x136
    .del 292,
    -- 870: x138 = np.zeros((nocc[0], nocc[0], nvir[0], nvir[0]), dtype=types[float])
    .zeros 294 [0, 0, 1, 1],
    -- 871: x138 += einsum("ia,ijkb->kjab", t1.aa, x137)
    .add 294 (.ein [(8, [0, 1]), (293, [0, 2, 3, 4])] [3, 2, 1, 4]) 1 1,
    -- 872: del x137
    .del 293,
    -- 873: x139 += einsum("ijab->jiba", x138)
    .add 289 (.ein [(294, [0, 1, 2, 3])] [1, 0, 3, 2]) 1 1,
    -- 874: del x138
    .del 294,
    -- 875: t2new_aaaa += einsum("ijab->ijab", x139)
    .add 260 (.ein [(289, [0, 1, 2, 3])] [0, 1, 2, 3]) 1 1,
    -- 876: t2new_aaaa += einsum("ijab->ijba", x139) * -1
    .add 260 (.ein [(289, [0, 1, 2, 3])] [0, 1, 3, 2]) (-1) 1,
    -- 877: del x139
    .del 289,
    -- 878: x140 = np.zeros((nocc[0], nocc[0], nvir[0], nvir[0]), dtype=types[float])
    .zeros 295 [0, 0, 1, 1],
    -- 879: x140 += einsum("ijab,ikjl->lkba", t2.aaaa, v.aaaa.oooo)
    .add 295 (.ein [(11, [0, 1, 2, 3]), (42, [0, 4, 1, 5])] [5, 4, 3, 2]) 1 1,
    -- 880: x142 = np.zeros((nocc[0], nocc[0], nvir[0], nvir[0]), dtype=types[float])
    .zeros 296 [0, 0, 1, 1],
    -- 881: x142 += einsum("ijab->jiba", x140)
    .add 296 (.ein [(295, [0, 1, 2, 3])] [1, 0, 3, 2]) 1 1,
    -- 882: del x140
    .del 295,
    -- 883: x141 = np.zeros((nocc[0], nocc[0], nvir[0], nvir[0]), dtype=types[float])
    .zeros 297 [0, 0, 1, 1],
    -- 884: x141 += einsum("ijab,cadb->ijcd", t2.aaaa, v.aaaa.vvvv)
    .add 297 (.ein [(11, [0, 1, 2, 3]), (41, [4, 2, 5, 3])] [0, 1, 4, 5]) 1 1,
    -- 885: x142 += einsum("ijab->jiba", x141)
    .add 296 (.ein [(297, [0, 1, 2, 3])] [1, 0, 3, 2]) 1 1,
    -- 886: del x141
    .del 297,
    -- 887: t2new_aaaa += einsum("ijab->ijba", x142) * -1
    .add 260 (.ein [(296, [0, 1, 2, 3])] [0, 1, 3, 2]) (-1) 1,
    -- 888: t2new_aaaa += einsum("ijab->ijab", x142)
    .add 260 (.ein [(296, [0, 1, 2, 3])] [0, 1, 2, 3]) 1 1,
    -- 889: del x142
    .del 296,
    -- 890: x143 = np.zeros((nocc[1], nocc[1], nvir[1], nvir[1]), dtype=types[float])
    .zeros 298 [4, 4, 5, 5],
    -- 891: x143 += einsum("ia,bjca->ijbc", t1.bb, v.bbbb.vovv)
    .add 298 (.ein [(17, [0, 1]), (43, [2, 3, 4, 1])] [0, 3, 2, 4]) 1 1,
    -- 892: x176 -= einsum("ijab->ijab", x143)
    .add 202 (.ein [(298, [0, 1, 2, 3])] [0, 1, 2, 3]) (-1) 1,
    -- 893: del x143
    .del 298,
    -- 894: x144 = np.zeros((nocc[1], nocc[1], nvir[1], nvir[1]), dtype=types[float])
    .zeros 299 [4, 4, 5, 5],
    -- 895: x144 += einsum("ijab,iack->jkbc", t2.abab, v.aabb.ovvo)
    .add 299 (.ein [(14, [0, 1, 2, 3]), (44, [0, 2, 4, 5])] [1, 5, 3, 4]) 1 1,
    -- 896: x176 += einsum("ijab->ijab", x144)
    .add 202 (.ein [(299, [0, 1, 2, 3])] [0, 1, 2, 3]) 1 1,
    -- 897: del x144
    .del 299,
    -- 898: x145 = np.zeros((nocc[0], nocc[1], nvir[0], nvir[1]), dtype=types[float])
    .zeros 300 [0, 4, 1, 5],
    -- 899: x145 += einsum("ia,jbca->jibc", t1.bb, v.aabb.ovvv)
    .add 300 (.ein [(17, [0, 1]), (36, [2, 3, 4, 1])] [2, 0, 3, 4]) 1 1,
    -- 900: x146 = np.zeros((nocc[1], nocc[1], nvir[1], nvir[1]), dtype=types[float])
    .zeros 301 [4, 4, 5, 5],
    -- 901: x146 += einsum("ijab,ikac->kjbc", t2.abab, x145)
    .add 301 (.ein [(14, [0, 1, 2, 3]), (300, [0, 4, 2, 5])] [4, 1, 3, 5]) 1 1,
    -- 902: x176 -= einsum("ijab->ijab", x146)
    .add 202 (.ein [(301, [0, 1, 2, 3])] [0, 1, 2, 3]) (-1) 1,
    -- 903: del x146
    .del 301,
    -- 904: x234 += einsum("ijab->ijab", x145)
    .add 111 (.ein [(300, [0, 1, 2, 3])] [0, 1, 2, 3]) 1 1,
    -- 905: x269 = np.zeros((nocc[0], nocc[1], nvir[0], nvir[1]), dtype=types[float])
    .zeros 302 [0, 4, 1, 5],
    -- 906: x269 += einsum("ijab->ijab", x145)
    .add 302 (.ein [(300, [0, 1, 2, 3])] [0, 1, 2, 3]) 1 1,
    -- 907: del x145
    .del 300,
    -- 908: x150 = np.zeros((nocc[1], nocc[1], nocc[1], nvir[1]), dtype=types[float])
    .zeros 303 [4, 4, 4, 5],
    -- 909: x150 += einsum("ijab,iakl->jklb", t2.abab, v.aabb.ovoo)
    .add 303 (.ein [(14, [0, 1, 2, 3]), (32, [0, 2, 4, 5])] [1, 4, 5, 3]) 1 1,
    -- 910: x158 += einsum("ijka->jika", x150)
    .add 204 (.ein [(303, [0, 1, 2, 3])] [1, 0, 2, 3]) 1 1,
    -- 911: del x150
    .del 303,
    -- 912: x152 = np.zeros((nocc[1], nocc[1], nvir[1], nvir[1]), dtype=types[float])
    .zeros 304 [4, 4, 5, 5],
    -- 913: x152 += einsum("ijab->jiab", t2.bbbb)
    .add 304 (.ein [(20, [0, 1, 2, 3])] [1, 0, 2, 3]) 1 1,
    -- 914: x152 -= einsum("ijab->jiba", t2.bbbb)
    .add 304 (.ein [(20, [0, 1, 2, 3])] [1, 0, 3, 2]) (-1) 1,
    -- 915: x153 = np.zeros((nocc[1], nocc[1], nocc[1], nvir[1]), dtype=types[float])
    .zeros 305 [4, 4, 4, 5],
    -- 916: x153 += einsum("ijka,klab->ijlb", x151, x152)
    .add 305 (.ein [(178, [0, 1, 2, 3]), (304, [2, 4, 3, 5])] [0, 1, 4, 5]) 1 1,
    -- 917: del x152
    .del 304,
    -- 918: del x151
    .del 178,
    -- 919: x158 += einsum("ijka->jika", x153)
    .add 204 (.ein [(305, [0, 1, 2, 3])] [1, 0, 2, 3]) 1 1,
    -- 920: del x153
    .del 305,
    -- 921: x155 += einsum("ia->ia", f.bb.ov)
    .add 122 (.ein [(23, [0, 1])] [0, 1]) 1 1,
    -- 922: x156 = np.zeros((nocc[1], nocc[1], nocc[1], nvir[1]), dtype=types[float])
    .zeros 306 [4, 4, 4, 5],
    -- 923: x156 += einsum("ia,jkab->jkib", x155, t2.bbbb)
    .add 306 (.ein [(122, [0, 1]), (20, [2, 3, 1, 4])] [2, 3, 0, 4]) 1 1,
    -- 924: x158 += einsum("ijka->kjia", x156)
    .add 204 (.ein [(306, [0, 1, 2, 3])] [2, 1, 0, 3]) 1 1,
    -- 925: del x156
    .del 306,
    -- 926: x160 = np.zeros((nocc[1], nocc[1]), dtype=types[float])
    .zeros 307 [4, 4],
    -- 927: x160 += einsum("ia,ja->ij", t1.bb, x155)
    .add 307 (.ein [(17, [0, 1]), (122, [2, 1])] [0, 2]) 1 1,
    -- 928: del x155
    .del 122,
    -- 929: x161 += einsum("ij->ij", x160)
    .add 210 (.ein [(307, [0, 1])] [0, 1]) 1 1,
    -- 930: del x160
    .del 307,
    -- 931: x158 -= einsum("ijak->ijka", v.bbbb.oovo)
    .add 204 (.ein [(45, [0, 1, 2, 3])] [0, 1, 3, 2]) (-1) 1,
    -- 932: x159 = np.zeros((nocc[1], nocc[1], nvir[1], nvir[1]), dtype=types[float])
    .zeros 308 [4, 4, 5, 5],
    -- 933: x159 += einsum("ia,ijkb->jkab", t1.bb, x158)
    .add 308 (.ein [(17, [0, 1]), (204, [0, 2, 3, 4])] [2, 3, 1, 4]) 1 1,
    -- 934: del x158
    .del 204,
    -- 935: x176 += einsum("ijab->ijab", x159)
    .add 202 (.ein [(308, [0, 1, 2, 3])] [0, 1, 2, 3]) 1 1,
    -- 936: del x159
    .del 308,
    -- 937: x161 += einsum("ij->ji", f.bb.oo)
    .add 210 (.ein [(35, [0, 1])] [1, 0]) 1 1,
    -- 938: x162 = np.zeros((nocc[1], nocc[1], nvir[1], nvir[1]), dtype=types[float])
    .zeros 309 [4, 4, 5, 5],
    -- 939: x162 += einsum("ij,jkab->kiab", x161, t2.bbbb)
    .add 309 (.ein [(210, [0, 1]), (20, [1, 2, 3, 4])] [2, 0, 3, 4]) 1 1,
    -- 940: del x161
    .del 210,
    -- 941: x176 += einsum("ijab->jiba", x162)
    .add 202 (.ein [(309, [0, 1, 2, 3])] [1, 0, 3, 2]) 1 1,
    -- 942: del x162
    .del 309,
    -- 943: x163 = np.zeros((nbos, nocc[1], nvir[1]), dtype=types[float])
    .zeros 310 [2, 4, 5],
    -- 944: x163 += einsum("ia,wba->wib", t1.bb, g.bb.bvv)
    .add 310 (.ein [(17, [0, 1]), (7, [2, 3, 1])] [2, 0, 3]) 1 1,
    -- 945: x167 += einsum("wia->wia", x163)
    .add 199 (.ein [(310, [0, 1, 2])] [0, 1, 2]) 1 1,
    -- 946: del x163
    .del 310,
    -- 947: x164 = np.zeros((nbos, nocc[1], nvir[1]), dtype=types[float])
    .zeros 311 [2, 4, 5],
    -- 948: x164 += einsum("wia,ijab->wjb", g.aa.bov, t2.abab)
    .add 311 (.ein [(2, [0, 1, 2]), (14, [1, 3, 2, 4])] [0, 3, 4]) 1 1,
    -- 949: x167 += einsum("wia->wia", x164)
    .add 199 (.ein [(311, [0, 1, 2])] [0, 1, 2]) 1 1,
    -- 950: del x164
    .del 311,
    -- 951: x167 += einsum("wai->wia", g.bb.bvo)
    .add 199 (.ein [(5, [0, 1, 2])] [0, 2, 1]) 1 1,
    -- 952: x168 = np.zeros((nocc[1], nocc[1], nvir[1], nvir[1]), dtype=types[float])
    .zeros 312 [4, 4, 5, 5],
    -- 953: x168 += einsum("wia,wjb->ijab", u11.bb, x167)
    .add 312 (.ein [(22, [0, 1, 2]), (199, [0, 3, 4])] [1, 3, 2, 4]) 1 1,
    -- 954: x176 += einsum("ijab->jiba", x168)
    .add 202 (.ein [(312, [0, 1, 2, 3])] [1, 0, 3, 2]) 1 1,
    -- 955: del x168
    .del 312,
    -- 956: x293 = np.zeros((nocc[0], nocc[1], nvir[0], nvir[1]), dtype=types[float])
    .zeros 313 [0, 4, 1, 5],
    -- 957: x293 += einsum("wia,wjb->ijab", u11.aa, x167)
    .add 313 (.ein [(18, [0, 1, 2]), (199, [0, 3, 4])] [1, 3, 2, 4]) 1 1,
    -- 958: del x167
    .del 199,
    -- 959: t2new_baba += einsum("ijab->jiba", x293)
    .add 167 (.ein [(313, [0, 1, 2, 3])] [1, 0, 3, 2]) 1 1,
    -- 960: t2new_abab += einsum("ijab->ijab", x293)
    .add 168 (.ein [(313, [0, 1, 2, 3])] [0, 1, 2, 3]) 1 1,
    -- 961: del x293
    .del 313,
    -- 962: x169 += einsum("ab->ab", f.bb.vv)
    .add 225 (.ein [(37, [0, 1])] [0, 1]) 1 1,
    -- 963: x170 = np.zeros((nocc[1], nocc[1], nvir[1], nvir[1]), dtype=types[float])
    .zeros 314 [4, 4, 5, 5],
    -- 964: x170 += einsum("ab,ijbc->ijca", x169, t2.bbbb)
    .add 314 (.ein [(225, [0, 1]), (20, [2, 3, 1, 4])] [2, 3, 4, 0]) 1 1,
    -- 965: del x169
    .del 225,
    -- 966: x176 -= einsum("ijab->jiba", x170)
    .add 202 (.ein [(314, [0, 1, 2, 3])] [1, 0, 3, 2]) (-1) 1,
    -- 967: del x170
    .del 314,
    -- 968: x171 = np.zeros((nvir[1], nvir[1]), dtype=types[float])
    .zeros 315 [5, 5],
    -- 969: x171 += einsum("wia,wib->ab", g.bb.bov, u11.bb)
    .add 315 (.ein [(6, [0, 1, 2]), (22, [0, 1, 3])] [2, 3]) 1 1,
    -- 970: x172 += einsum("ab->ab", x171)
    .add 227 (.ein [(315, [0, 1])] [0, 1]) 1 1,
    -- 971: x173 = np.zeros((nocc[1], nocc[1], nvir[1], nvir[1]), dtype=types[float])
    .zeros 316 [4, 4, 5, 5],
    -- 972: x173 += einsum("ab,ijac->ijcb", x172, t2.bbbb)
    .add 316 (.ein [(227, [0, 1]), (20, [2, 3, 0, 4])] [2, 3, 4, 1]) 1 1,
    -- 973: del x172
    .del 227,
    -- 974: x176 -= einsum("ijab->jiab", x173)
    .add 202 (.ein [(316, [0, 1, 2, 3])] [1, 0, 2, 3]) (-1) 1,
    -- 975: del x173
    .del 316,
    -- 976: t2new_bbbb += einsum("ijab->ijab", x176)
    .add 244 (.ein [(202, [0, 1, 2, 3])] [0, 1, 2, 3]) 1 1,
    -- 977: t2new_bbbb -= einsum("ijab->ijba", x176)
    .add 244 (.ein [(202, [0, 1, 2, 3])] [0, 1, 3, 2]) (-1) 1,
    -- 978: t2new_bbbb -= einsum("ijab->jiab", x176)
    .add 244 (.ein [(202, [0, 1, 2, 3])] [1, 0, 2, 3]) (-1) 1,
    -- 979: t2new_bbbb += einsum("ijab->jiba", x176)
    .add 244 (.ein [(202, [0, 1, 2, 3])] [1, 0, 3, 2]) 1 1,
    -- 980: del x176
    .del 202,
    -- 981: x278 += einsum("ab->ba", x171) * -1
    .add 141 (.ein [(315, [0, 1])] [1, 0]) (-1) 1,
    -- 982: x316 += einsum("ab->ba", x171) * -1
    .add 133 (.ein [(315, [0, 1])] [1, 0]) (-1) 1,
    -- 983: del x171
    .del 315,
    -- 984: x177 = np.zeros((nocc[1], nocc[1], nvir[1], nvir[1]), dtype=types[float])
    .zeros 317 [4, 4, 5, 5],
    -- 985: x177 += einsum("ijab,ikjl->lkba", t2.bbbb, v.bbbb.oooo)
    .add 317 (.ein [(20, [0, 1, 2, 3]), (46, [0, 4, 1, 5])] [5, 4, 3, 2]) 1 1,
    -- 986: x179 = np.zeros((nocc[1], nocc[1], nvir[1], nvir[1]), dtype=types[float])
    .zeros 318 [4, 4, 5, 5],
    -- 987: x179 += einsum("ijab->jiba", x177)
    .add 318 (.ein [(317, [0, 1, 2, 3])] [1, 0, 3, 2]) 1 1,
    -- 988: del x177
    .del 317,
    -- 989: x178 = np.zeros((nocc[1], nocc[1], nvir[1], nvir[1]), dtype=types[float])
    .zeros 319 [4, 4, 5, 5],
    -- 990: x178 += einsum("ijab,cbda->ijdc", t2.bbbb, v.bbbb.vvvv)
    .add 319 (.ein [(20, [0, 1, 2, 3]), (47, [4, 3, 5, 2])] [0, 1, 5, 4]) 1 1,
    -- 991: x179 += einsum("ijab->jiba", x178)
    .add 318 (.ein [(319, [0, 1, 2, 3])] [1, 0, 3, 2]) 1 1,
    -- 992: del x178
    .del 319,
    -- 993: t2new_bbbb += einsum("ijab->ijba", x179) * -1
    .add 244 (.ein [(318, [0, 1, 2, 3])] [0, 1, 3, 2]) (-1) 1,
    -- 994: t2new_bbbb += einsum("ijab->ijab", x179)
    .add 244 (.ein [(318, [0, 1, 2, 3])] [0, 1, 2, 3]) 1 1,
    -- 995: del x179
    .del 318,
    -- 996: x180 = np.zeros((nocc[1], nvir[1], nvir[1], nvir[1]), dtype=types[float])
    .zeros 320 [4, 5, 5, 5],
    -- 997: x180 += einsum("ia,bcda->ibdc", t1.bb, v.bbbb.vvvv)
    .add 320 (.ein [(17, [0, 1]), (47, [2, 3, 4, 1])] [0, 2, 4, 3]) 1 1,
    -- 998: x181 = np.zeros((nocc[1], nocc[1], nvir[1], nvir[1]), dtype=types[float])
    .zeros 321 [4, 4, 5, 5],
    -- 999: x181 += einsum("ia,jbca->ijbc", t1.bb, x180)
    .add 321 (.ein [(17, [0, 1]), (320, [2, 3, 4, 1])] [0, 2, 3, 4]) 1 1,
    -- 1000: del x180
    .del 320,
    -- 1001: x189 += einsum("ijab->ijab", x181)
    .add 181 (.ein [(321, [0, 1, 2, 3])] [0, 1, 2, 3]) 1 1,
    -- 1002: del x181
    .del 321,
    -- 1003: x182 = np.zeros((nocc[1], nocc[1], nocc[1], nocc[1]), dtype=types[float])
    .zeros 322 [4, 4, 4, 4],
    -- 1004: x182 += einsum("ijab,kbla->ijlk", t2.bbbb, v.bbbb.ovov)
    .add 322 (.ein [(20, [0, 1, 2, 3]), (21, [4, 3, 5, 2])] [0, 1, 5, 4]) 1 1,
    -- 1005: x183 = np.zeros((nocc[1], nocc[1], nvir[1], nvir[1]), dtype=types[float])
    .zeros 323 [4, 4, 5, 5],
    -- 1006: x183 += einsum("ijab,klji->lkab", t2.bbbb, x182)
    .add 323 (.ein [(20, [0, 1, 2, 3]), (322, [4, 5, 1, 0])] [5, 4, 2, 3]) 1 1,
    -- 1007: x189 += einsum("ijab->ijab", x183)
    .add 181 (.ein [(323, [0, 1, 2, 3])] [0, 1, 2, 3]) 1 1,
    -- 1008: del x183
    .del 323,
    -- 1009: x186 = np.zeros((nocc[1], nocc[1], nocc[1], nocc[1]), dtype=types[float])
    .zeros 324 [4, 4, 4, 4],
    -- 1010: x186 += einsum("ijkl->lkji", x182)
    .add 324 (.ein [(322, [0, 1, 2, 3])] [3, 2, 1, 0]) 1 1,
    -- 1011: del x182
    .del 322,
    -- 1012: x186 += einsum("ijkl->kilj", v.bbbb.oooo)
    .add 324 (.ein [(46, [0, 1, 2, 3])] [2, 0, 3, 1]) 1 1,
    -- 1013: x187 = np.zeros((nocc[1], nocc[1], nocc[1], nvir[1]), dtype=types[float])
    .zeros 325 [4, 4, 4, 5],
    -- 1014: x187 += einsum("ia,ijkl->jkla", t1.bb, x186)
    .add 325 (.ein [(17, [0, 1]), (324, [0, 2, 3, 4])] [2, 3, 4, 1]) 1 1,
    -- 1015: del x186
    .del 324,
    -- 1016: x188 = np.zeros((nocc[1], nocc[1], nvir[1], nvir[1]), dtype=types[float])
    .zeros 326 [4, 4, 5, 5],
    -- 1017: x188 += einsum("ia,ijkb->kjab", t1.bb, x187)
    .add 326 (.ein [(17, [0, 1]), (325, [0, 2, 3, 4])] [3, 2, 1, 4]) 1 1,
    -- 1018: del x187
    .del 325,
    -- 1019: x189 += einsum("ijab->ijab", x188)
    .add 181 (.ein [(326, [0, 1, 2, 3])] [0, 1, 2, 3]) 1 1,
    -- 1020: del x188
    .del 326,
    -- 1021: t2new_bbbb += einsum("ijab->ijab", x189)
    .add 244 (.ein [(181, [0, 1, 2, 3])] [0, 1, 2, 3]) 1 1,
    -- 1022: t2new_bbbb += einsum("ijab->ijba", x189) * -1
    .add 244 (.ein [(181, [0, 1, 2, 3])] [0, 1, 3, 2]) (-1) 1,
    -- 1023: del x189
    .del 181,
    -- 1024: x190 = np.zeros((nocc[1], nocc[1], nocc[1], nocc[1]), dtype=types[float])
    .zeros 327 [4, 4, 4, 4],
    -- 1025: x190 += einsum("ia,jkla->ijlk", t1.bb, v.bbbb.ooov)
    .add 327 (.ein [(17, [0, 1]), (30, [2, 3, 4, 1])] [0, 2, 4, 3]) 1 1,
    -- 1026: x191 = np.zeros((nocc[1], nocc[1], nvir[1], nvir[1]), dtype=types[float])
    .zeros 328 [4, 4, 5, 5],
    -- 1027: x191 += einsum("ijab,kjil->klba", t2.bbbb, x190)
    .add 328 (.ein [(20, [0, 1, 2, 3]), (327, [4, 1, 0, 5])] [4, 5, 3, 2]) 1 1,
    -- 1028: x222 += einsum("ijab->ijab", x191)
    .add 217 (.ein [(328, [0, 1, 2, 3])] [0, 1, 2, 3]) 1 1,
    -- 1029: del x191
    .del 328,
    -- 1030: x199 = np.zeros((nocc[1], nocc[1], nocc[1], nvir[1]), dtype=types[float])
    .zeros 329 [4, 4, 4, 5],
    -- 1031: x199 += einsum("ia,jkil->jkla", t1.bb, x190)
    .add 329 (.ein [(17, [0, 1]), (327, [2, 3, 0, 4])] [2, 3, 4, 1]) 1 1,
    -- 1032: del x190
    .del 327,
    -- 1033: x208 += einsum("ijka->ijka", x199)
    .add 127 (.ein [(329, [0, 1, 2, 3])] [0, 1, 2, 3]) 1 1,
    -- 1034: del x199
    .del 329,
    -- 1035: x192 = np.zeros((nvir[1], nvir[1]), dtype=types[float])
    .zeros 330 [5, 5],
    -- 1036: x192 += einsum("ijab,iajc->bc", t2.abab, v.aabb.ovov)
    .add 330 (.ein [(14, [0, 1, 2, 3]), (13, [0, 2, 1, 4])] [3, 4]) 1 1,
    -- 1037: x193 = np.zeros((nocc[1], nocc[1], nvir[1], nvir[1]), dtype=types[float])
    .zeros 331 [4, 4, 5, 5],
    -- 1038: x193 += einsum("ab,ijcb->ijac", x192, t2.bbbb)
    .add 331 (.ein [(330, [0, 1]), (20, [2, 3, 4, 1])] [2, 3, 0, 4]) 1 1,
    -- 1039: x222 += einsum("ijab->ijab", x193) * -1
    .add 217 (.ein [(331, [0, 1, 2, 3])] [0, 1, 2, 3]) (-1) 1,
    -- 1040: del x193
    .del 331,
    -- 1041: x278 += einsum("ab->ab", x192) * -1
    .add 141 (.ein [(330, [0, 1])] [0, 1]) (-1) 1,
    -- 1042: x316 += einsum("ab->ab", x192) * -1
    .add 133 (.ein [(330, [0, 1])] [0, 1]) (-1) 1,
    -- 1043: del x192
    .del 330,
    -- 1044: x194 = np.zeros((nocc[1], nocc[1], nvir[1], nvir[1]), dtype=types[float])
    .zeros 332 [4, 4, 5, 5],
    -- 1045: x194 += einsum("ijab->jiab", t2.bbbb) * -1
    .add 332 (.ein [(20, [0, 1, 2, 3])] [1, 0, 2, 3]) (-1) 1,
    -- 1046: x194 += einsum("ijab->jiba", t2.bbbb)
    .add 332 (.ein [(20, [0, 1, 2, 3])] [1, 0, 3, 2]) 1 1,
    -- 1047: x196 = np.zeros((nocc[1], nocc[1], nvir[1], nvir[1]), dtype=types[float])
    .zeros 333 [4, 4, 5, 5],
    -- 1048: x196 += einsum("ijab,kicb->jkac", x194, x195) * -1
    .add 333 (.ein [(332, [0, 1, 2, 3]), (189, [4, 0, 5, 3])] [1, 4, 2, 5]) (-1) 1,
    -- 1049: del x195
    .del 189,
    -- 1050: x222 += einsum("ijab->jiab", x196) * -1
    .add 217 (.ein [(333, [0, 1, 2, 3])] [1, 0, 2, 3]) (-1) 1,
    -- 1051: del x196
    .del 333,
    -- 1052: x197 = np.zeros((nocc[0], nocc[1], nvir[0], nvir[1]), dtype=types[float])
    .zeros 334 [0, 4, 1, 5],
    -- 1053: x197 += einsum("iajb,jkcb->ikac", v.aabb.ovov, x194)
    .add 334 (.ein [(13, [0, 1, 2, 3]), (332, [2, 4, 5, 3])] [0, 4, 1, 5]) 1 1,
    -- 1054: x198 = np.zeros((nocc[1], nocc[1], nvir[1], nvir[1]), dtype=types[float])
    .zeros 335 [4, 4, 5, 5],
    -- 1055: x198 += einsum("ijab,ikac->jkbc", t2.abab, x197) * -1
    .add 335 (.ein [(14, [0, 1, 2, 3]), (334, [0, 4, 2, 5])] [1, 4, 3, 5]) (-1) 1,
    -- 1056: x222 += einsum("ijab->ijab", x198) * -1
    .add 217 (.ein [(335, [0, 1, 2, 3])] [0, 1, 2, 3]) (-1) 1,
    -- 1057: del x198
    .del 335,
    -- 1058: x234 += einsum("ijab->ijab", x197) * -1
    .add 111 (.ein [(334, [0, 1, 2, 3])] [0, 1, 2, 3]) (-1) 1,
    -- 1059: del x197
    .del 334,
    -- 1060: x237 = np.zeros((nocc[1], nocc[1], nvir[1], nvir[1]), dtype=types[float])
    .zeros 336 [4, 4, 5, 5],
    -- 1061: x237 += einsum("ijab,ikcb->jkac", x13, x194)
    .add 336 (.ein [(131, [0, 1, 2, 3]), (332, [0, 4, 5, 3])] [1, 4, 2, 5]) 1 1,
    -- 1062: del x13
    .del 131,
    -- 1063: x239 = np.zeros((nocc[1], nocc[1], nvir[1], nvir[1]), dtype=types[float])
    .zeros 337 [4, 4, 5, 5],
    -- 1064: x239 += einsum("ijab->ijba", x237)
    .add 337 (.ein [(336, [0, 1, 2, 3])] [0, 1, 3, 2]) 1 1,
    -- 1065: del x237
    .del 336,
    -- 1066: x263 = np.zeros((nocc[0], nocc[0], nocc[1], nvir[1]), dtype=types[float])
    .zeros 338 [0, 0, 4, 5],
    -- 1067: x263 += einsum("ijab,klib->klja", x194, x4)
    .add 338 (.ein [(332, [0, 1, 2, 3]), (87, [4, 5, 0, 3])] [4, 5, 1, 2]) 1 1,
    -- 1068: del x4
    .del 87,
    -- 1069: x271 += einsum("ijka->ijka", x263) * -1
    .add 116 (.ein [(338, [0, 1, 2, 3])] [0, 1, 2, 3]) (-1) 1,
    -- 1070: del x263
    .del 338,
    -- 1071: x200 = np.zeros((nocc[1], nocc[1], nocc[1], nvir[1]), dtype=types[float])
    .zeros 339 [4, 4, 4, 5],
    -- 1072: x200 += einsum("ijab,kacb->ijkc", t2.bbbb, v.bbbb.ovvv)
    .add 339 (.ein [(20, [0, 1, 2, 3]), (31, [4, 2, 5, 3])] [0, 1, 4, 5]) 1 1,
    -- 1073: x208 += einsum("ijka->ikja", x200)
    .add 127 (.ein [(339, [0, 1, 2, 3])] [0, 2, 1, 3]) 1 1,
    -- 1074: del x200
    .del 339,
    -- 1075: x201 = np.zeros((nocc[1], nocc[1], nvir[1], nvir[1]), dtype=types[float])
    .zeros 340 [4, 4, 5, 5],
    -- 1076: x201 += einsum("ia,jbca->ijcb", t1.bb, v.bbbb.ovvv)
    .add 340 (.ein [(17, [0, 1]), (31, [2, 3, 4, 1])] [0, 2, 4, 3]) 1 1,
    -- 1077: x202 = np.zeros((nocc[1], nocc[1], nocc[1], nvir[1]), dtype=types[float])
    .zeros 341 [4, 4, 4, 5],
    -- 1078: x202 += einsum("ia,jkba->ijkb", t1.bb, x201)
    .add 341 (.ein [(17, [0, 1]), (340, [2, 3, 4, 1])] [0, 2, 3, 4]) 1 1,
    -- 1079: del x201
    .del 340,
    -- 1080: x208 += einsum("ijka->ikja", x202)
    .add 127 (.ein [(341, [0, 1, 2, 3])] [0, 2, 1, 3]) 1 1,
    -- 1081: del x202
    .del 341,
    -- 1082: x205 = np.zeros((nocc[1], nocc[1], nocc[1], nvir[1]), dtype=types[float])
    .zeros 342 [4, 4, 4, 5],
    -- 1083: x205 += einsum("ijka->ikja", v.bbbb.ooov) * -1
    .add 342 (.ein [(30, [0, 1, 2, 3])] [0, 2, 1, 3]) (-1) 1,
    -- 1084: x205 += einsum("ijka->kija", v.bbbb.ooov)
    .add 342 (.ein [(30, [0, 1, 2, 3])] [2, 0, 1, 3]) 1 1,
    -- 1085: x206 = np.zeros((nocc[1], nocc[1], nvir[1], nvir[1]), dtype=types[float])
    .zeros 343 [4, 4, 5, 5],
    -- 1086: x206 += einsum("ijab->jiab", t2.bbbb)
    .add 343 (.ein [(20, [0, 1, 2, 3])] [1, 0, 2, 3]) 1 1,
    -- 1087: x206 += einsum("ijab->jiba", t2.bbbb) * -1
    .add 343 (.ein [(20, [0, 1, 2, 3])] [1, 0, 3, 2]) (-1) 1,
    -- 1088: x207 = np.zeros((nocc[1], nocc[1], nocc[1], nvir[1]), dtype=types[float])
    .zeros 344 [4, 4, 4, 5],
    -- 1089: x207 += einsum("ijka,ilab->jklb", x205, x206)
    .add 344 (.ein [(342, [0, 1, 2, 3]), (343, [0, 4, 3, 5])] [1, 2, 4, 5]) 1 1,
    -- 1090: del x205
    .del 342,
    -- 1091: del x206
    .del 343,
    -- 1092: x208 += einsum("ijka->kija", x207)
    .add 127 (.ein [(344, [0, 1, 2, 3])] [2, 0, 1, 3]) 1 1,
    -- 1093: del x207
    .del 344,
    -- 1094: x209 = np.zeros((nocc[1], nocc[1], nvir[1], nvir[1]), dtype=types[float])
    .zeros 345 [4, 4, 5, 5],
    -- 1095: x209 += einsum("ia,jikb->jkab", t1.bb, x208)
    .add 345 (.ein [(17, [0, 1]), (127, [2, 0, 3, 4])] [2, 3, 1, 4]) 1 1,
    -- 1096: del x208
    .del 127,
    -- 1097: x222 += einsum("ijab->ijab", x209)
    .add 217 (.ein [(345, [0, 1, 2, 3])] [0, 1, 2, 3]) 1 1,
    -- 1098: del x209
    .del 345,
    -- 1099: x211 = np.zeros((nocc[1], nvir[1], nvir[1], nvir[1]), dtype=types[float])
    .zeros 346 [4, 5, 5, 5],
    -- 1100: x211 += einsum("iabc->ibac", v.bbbb.ovvv) * -1
    .add 346 (.ein [(31, [0, 1, 2, 3])] [0, 2, 1, 3]) (-1) 1,
    -- 1101: x211 += einsum("iabc->ibca", v.bbbb.ovvv)
    .add 346 (.ein [(31, [0, 1, 2, 3])] [0, 2, 3, 1]) 1 1,
    -- 1102: x212 = np.zeros((nvir[1], nvir[1]), dtype=types[float])
    .zeros 347 [5, 5],
    -- 1103: x212 += einsum("ia,ibca->bc", t1.bb, x211)
    .add 347 (.ein [(17, [0, 1]), (346, [0, 2, 3, 1])] [2, 3]) 1 1,
    -- 1104: x213 += einsum("ab->ab", x212) * -1
    .add 137 (.ein [(347, [0, 1])] [0, 1]) (-1) 1,
    -- 1105: del x212
    .del 347,
    -- 1106: x214 = np.zeros((nocc[1], nocc[1], nvir[1], nvir[1]), dtype=types[float])
    .zeros 348 [4, 4, 5, 5],
    -- 1107: x214 += einsum("ab,ijbc->ijca", x213, t2.bbbb)
    .add 348 (.ein [(137, [0, 1]), (20, [2, 3, 1, 4])] [2, 3, 4, 0]) 1 1,
    -- 1108: del x213
    .del 137,
    -- 1109: x222 += einsum("ijab->jiab", x214)
    .add 217 (.ein [(348, [0, 1, 2, 3])] [1, 0, 2, 3]) 1 1,
    -- 1110: del x214
    .del 348,
    -- 1111: t2new_bbbb += einsum("ijab->ijab", x222) * -1
    .add 244 (.ein [(217, [0, 1, 2, 3])] [0, 1, 2, 3]) (-1) 1,
    -- 1112: t2new_bbbb += einsum("ijab->ijba", x222)
    .add 244 (.ein [(217, [0, 1, 2, 3])] [0, 1, 3, 2]) 1 1,
    -- 1113: t2new_bbbb += einsum("ijab->jiab", x222)
    .add 244 (.ein [(217, [0, 1, 2, 3])] [1, 0, 2, 3]) 1 1,
    -- 1114: t2new_bbbb += einsum("ijab->jiba", x222) * -1
    .add 244 (.ein [(217, [0, 1, 2, 3])] [1, 0, 3, 2]) (-1) 1,
    -- 1115: del x222
    .del 217,
    -- 1116: x238 = np.zeros((nocc[1], nocc[1], nvir[1], nvir[1]), dtype=types[float])
    .zeros 349 [4, 4, 5, 5],
    -- 1117: x238 += einsum("ia,jbca->ijbc", t1.bb, x211)
    .add 349 (.ein [(17, [0, 1]), (346, [2, 3, 4, 1])] [0, 2, 3, 4]) 1 1,
    -- 1118: del x211
    .del 346,
    -- 1119: x239 += einsum("ijab->jiab", x238) * -1
    .add 337 (.ein [(349, [0, 1, 2, 3])] [1, 0, 2, 3]) (-1) 1,
    -- 1120: del x238
    .del 349,
    -- 1121: x231 = np.zeros((nocc[0], nocc[1], nvir[0], nvir[1]), dtype=types[float])
    .zeros 350 [0, 4, 1, 5],
    -- 1122: x231 += einsum("ia,bjca->jibc", t1.bb, v.aabb.vovv)
    .add 350 (.ein [(17, [0, 1]), (48, [2, 3, 4, 1])] [3, 0, 2, 4]) 1 1,
    -- 1123: t2new_baba += einsum("ijab->jiba", x231)
    .add 167 (.ein [(350, [0, 1, 2, 3])] [1, 0, 3, 2]) 1 1,
    -- 1124: t2new_abab += einsum("ijab->ijab", x231)
    .add 168 (.ein [(350, [0, 1, 2, 3])] [0, 1, 2, 3]) 1 1,
    -- 1125: del x231
    .del 350,
    -- 1126: x232 = np.zeros((nocc[0], nocc[1], nvir[0], nvir[1]), dtype=types[float])
    .zeros 351 [0, 4, 1, 5],
    -- 1127: x232 += einsum("ijab,cadb->ijcd", t2.abab, v.aabb.vvvv)
    .add 351 (.ein [(14, [0, 1, 2, 3]), (49, [4, 2, 5, 3])] [0, 1, 4, 5]) 1 1,
    -- 1128: t2new_baba += einsum("ijab->jiba", x232)
    .add 167 (.ein [(351, [0, 1, 2, 3])] [1, 0, 3, 2]) 1 1,
    -- 1129: t2new_abab += einsum("ijab->ijab", x232)
    .add 168 (.ein [(351, [0, 1, 2, 3])] [0, 1, 2, 3]) 1 1,
    -- 1130: del x232
    .del 351,
    -- 1131: x234 += einsum("iabj->ijab", v.aabb.ovvo)
    .add 111 (.ein [(44, [0, 1, 2, 3])] [0, 3, 1, 2]) 1 1,
    -- 1132: x235 = np.zeros((nocc[0], nocc[1], nvir[0], nvir[1]), dtype=types[float])
    .zeros 352 [0, 4, 1, 5],
    -- 1133: x235 += einsum("ijab,ikbc->jkac", x10, x234)
    .add 352 (.ein [(118, [0, 1, 2, 3]), (111, [0, 4, 3, 5])] [1, 4, 2, 5]) 1 1,
    -- 1134: del x234
    .del 111,
    -- 1135: t2new_baba += einsum("ijab->jiba", x235)
    .add 167 (.ein [(352, [0, 1, 2, 3])] [1, 0, 3, 2]) 1 1,
    -- 1136: t2new_abab += einsum("ijab->ijab", x235)
    .add 168 (.ein [(352, [0, 1, 2, 3])] [0, 1, 2, 3]) 1 1,
    -- 1137: del x235
    .del 352,
    -- 1138: x236 = np.zeros((nocc[1], nocc[1], nvir[1], nvir[1]), dtype=types[float])
    .zeros 353 [4, 4, 5, 5],
    -- 1139: x236 += einsum("ijab,iakc->jkbc", t2.abab, v.aabb.ovov)
    .add 353 (.ein [(14, [0, 1, 2, 3]), (13, [0, 2, 4, 5])] [1, 4, 3, 5]) 1 1,
    -- 1140: x239 += einsum("ijab->jiab", x236)
    .add 337 (.ein [(353, [0, 1, 2, 3])] [1, 0, 2, 3]) 1 1,
    -- 1141: del x236
    .del 353,
    -- 1142: x239 += einsum("iabj->ijba", v.bbbb.ovvo)
    .add 337 (.ein [(33, [0, 1, 2, 3])] [0, 3, 2, 1]) 1 1,
    -- 1143: x239 += einsum("ijab->ijab", v.bbbb.oovv) * -1
    .add 337 (.ein [(34, [0, 1, 2, 3])] [0, 1, 2, 3]) (-1) 1,
    -- 1144: x240 = np.zeros((nocc[0], nocc[1], nvir[0], nvir[1]), dtype=types[float])
    .zeros 354 [0, 4, 1, 5],
    -- 1145: x240 += einsum("ijab,jkcb->ikac", t2.abab, x239)
    .add 354 (.ein [(14, [0, 1, 2, 3]), (337, [1, 4, 5, 3])] [0, 4, 2, 5]) 1 1,
    -- 1146: del x239
    .del 337,
    -- 1147: t2new_baba += einsum("ijab->jiba", x240)
    .add 167 (.ein [(354, [0, 1, 2, 3])] [1, 0, 3, 2]) 1 1,
    -- 1148: t2new_abab += einsum("ijab->ijab", x240)
    .add 168 (.ein [(354, [0, 1, 2, 3])] [0, 1, 2, 3]) 1 1,
    -- 1149: del x240
    .del 354,
    -- 1150: x241 += einsum("iabj->jiba", v.bbaa.ovvo)
    .add 232 (.ein [(39, [0, 1, 2, 3])] [3, 0, 2, 1]) 1 1,
    -- 1151: t2new_baba += einsum("ijab,jkbc->kica", x241, x40)
    .add 167 (.ein [(232, [0, 1, 2, 3]), (197, [1, 4, 3, 5])] [4, 0, 5, 2]) 1 1,
    -- 1152: t2new_abab -= einsum("ijab,jkcb->ikac", x241, x40)
    .add 168 (.ein [(232, [0, 1, 2, 3]), (197, [1, 4, 5, 3])] [0, 4, 2, 5]) (-1) 1,
    -- 1153: del x40
    .del 197,
    -- 1154: del x241
    .del 232,
    -- 1155: x242 = np.zeros((nocc[0], nvir[0], nvir[0], nvir[0]), dtype=types[float])
    .zeros 355 [0, 1, 1, 1],
    -- 1156: x242 -= einsum("iabc->ibac", v.aaaa.ovvv)
    .add 355 (.ein [(12, [0, 1, 2, 3])] [0, 2, 1, 3]) (-1) 1,
    -- 1157: x242 += einsum("iabc->ibca", v.aaaa.ovvv)
    .add 355 (.ein [(12, [0, 1, 2, 3])] [0, 2, 3, 1]) 1 1,
    -- 1158: x243 = np.zeros((nocc[0], nocc[0], nvir[0], nvir[0]), dtype=types[float])
    .zeros 356 [0, 0, 1, 1],
    -- 1159: x243 += einsum("ia,jbca->jibc", t1.aa, x242)
    .add 356 (.ein [(8, [0, 1]), (355, [2, 3, 4, 1])] [2, 0, 3, 4]) 1 1,
    -- 1160: del x242
    .del 355,
    -- 1161: x244 = np.zeros((nocc[0], nocc[0], nvir[0], nvir[0]), dtype=types[float])
    .zeros 357 [0, 0, 1, 1],
    -- 1162: x244 -= einsum("ijab->ijab", x243)
    .add 357 (.ein [(356, [0, 1, 2, 3])] [0, 1, 2, 3]) (-1) 1,
    -- 1163: del x243
    .del 356,
    -- 1164: x244 += einsum("iabj->ijba", v.aaaa.ovvo)
    .add 357 (.ein [(24, [0, 1, 2, 3])] [0, 3, 2, 1]) 1 1,
    -- 1165: x244 -= einsum("ijab->ijab", v.aaaa.oovv)
    .add 357 (.ein [(25, [0, 1, 2, 3])] [0, 1, 2, 3]) (-1) 1,
    -- 1166: x245 = np.zeros((nocc[0], nocc[1], nvir[0], nvir[1]), dtype=types[float])
    .zeros 358 [0, 4, 1, 5],
    -- 1167: x245 += einsum("ijab,ikca->kjcb", t2.abab, x244)
    .add 358 (.ein [(14, [0, 1, 2, 3]), (357, [0, 4, 5, 2])] [4, 1, 5, 3]) 1 1,
    -- 1168: del x244
    .del 357,
    -- 1169: t2new_baba += einsum("ijab->jiba", x245)
    .add 167 (.ein [(358, [0, 1, 2, 3])] [1, 0, 3, 2]) 1 1,
    -- 1170: t2new_abab += einsum("ijab->ijab", x245)
    .add 168 (.ein [(358, [0, 1, 2, 3])] [0, 1, 2, 3]) 1 1,
    -- 1171: del x245
    .del 358,
    -- 1172: x246 = np.zeros((nocc[0], nocc[0], nvir[1], nvir[1]), dtype=types[float])
    .zeros 359 [0, 0, 5, 5],
    -- 1173: x246 += einsum("ia,jabc->ijbc", t1.aa, v.aabb.ovvv)
    .add 359 (.ein [(8, [0, 1]), (36, [2, 1, 3, 4])] [0, 2, 3, 4]) 1 1,
    -- 1174: x248 = np.zeros((nocc[0], nocc[0], nvir[1], nvir[1]), dtype=types[float])
    .zeros 360 [0, 0, 5, 5],
    -- 1175: x248 += einsum("ijab->jiab", x246)
    .add 360 (.ein [(359, [0, 1, 2, 3])] [1, 0, 2, 3]) 1 1,
    -- 1176: del x246
    .del 359,
    -- 1177: x247 = np.zeros((nocc[0], nocc[0], nvir[1], nvir[1]), dtype=types[float])
    .zeros 361 [0, 0, 5, 5],
    -- 1178: x247 += einsum("ijab,kajc->ikbc", t2.abab, v.aabb.ovov)
    .add 361 (.ein [(14, [0, 1, 2, 3]), (13, [4, 2, 1, 5])] [0, 4, 3, 5]) 1 1,
    -- 1179: x248 -= einsum("ijab->jiab", x247)
    .add 360 (.ein [(361, [0, 1, 2, 3])] [1, 0, 2, 3]) (-1) 1,
    -- 1180: del x247
    .del 361,
    -- 1181: x248 += einsum("ijab->ijab", v.aabb.oovv)
    .add 360 (.ein [(50, [0, 1, 2, 3])] [0, 1, 2, 3]) 1 1,
    -- 1182: x249 = np.zeros((nocc[0], nocc[1], nvir[0], nvir[1]), dtype=types[float])
    .zeros 362 [0, 4, 1, 5],
    -- 1183: x249 += einsum("ijab,ikcb->kjac", t2.abab, x248)
    .add 362 (.ein [(14, [0, 1, 2, 3]), (360, [0, 4, 5, 3])] [4, 1, 2, 5]) 1 1,
    -- 1184: del x248
    .del 360,
    -- 1185: t2new_baba -= einsum("ijab->jiba", x249)
    .add 167 (.ein [(362, [0, 1, 2, 3])] [1, 0, 3, 2]) (-1) 1,
    -- 1186: t2new_abab -= einsum("ijab->ijab", x249)
    .add 168 (.ein [(362, [0, 1, 2, 3])] [0, 1, 2, 3]) (-1) 1,
    -- 1187: del x249
    .del 362,
    -- 1188: x250 = np.zeros((nocc[0], nocc[0], nocc[1], nocc[1]), dtype=types[float])
    .zeros 363 [0, 0, 4, 4],
    -- 1189: x250 += einsum("ia,jkla->jkil", t1.bb, v.aabb.ooov)
    .add 363 (.ein [(17, [0, 1]), (15, [2, 3, 4, 1])] [2, 3, 0, 4]) 1 1,
    -- 1190: x254 = np.zeros((nocc[0], nocc[0], nocc[1], nocc[1]), dtype=types[float])
    .zeros 364 [0, 0, 4, 4],
    -- 1191: x254 += einsum("ijkl->ijlk", x250)
    .add 364 (.ein [(363, [0, 1, 2, 3])] [0, 1, 3, 2]) 1 1,
    -- 1192: x267 += einsum("ijkl->ijlk", x250)
    .add 196 (.ein [(363, [0, 1, 2, 3])] [0, 1, 3, 2]) 1 1,
    -- 1193: del x250
    .del 363,
    -- 1194: x251 = np.zeros((nocc[0], nocc[0], nocc[1], nocc[1]), dtype=types[float])
    .zeros 365 [0, 0, 4, 4],
    -- 1195: x251 += einsum("ijab,kalb->ikjl", t2.abab, v.aabb.ovov)
    .add 365 (.ein [(14, [0, 1, 2, 3]), (13, [4, 2, 5, 3])] [0, 4, 1, 5]) 1 1,
    -- 1196: x254 += einsum("ijkl->jilk", x251)
    .add 364 (.ein [(365, [0, 1, 2, 3])] [1, 0, 3, 2]) 1 1,
    -- 1197: x267 += einsum("ijkl->jilk", x251)
    .add 196 (.ein [(365, [0, 1, 2, 3])] [1, 0, 3, 2]) 1 1,
    -- 1198: del x251
    .del 365,
    -- 1199: x252 += einsum("iajk->ijka", v.aabb.ovoo)
    .add 193 (.ein [(32, [0, 1, 2, 3])] [0, 2, 3, 1]) 1 1,
    -- 1200: x253 = np.zeros((nocc[0], nocc[0], nocc[1], nocc[1]), dtype=types[float])
    .zeros 366 [0, 0, 4, 4],
    -- 1201: x253 += einsum("ia,jkla->jikl", t1.aa, x252)
    .add 366 (.ein [(8, [0, 1]), (193, [2, 3, 4, 1])] [2, 0, 3, 4]) 1 1,
    -- 1202: del x252
    .del 193,
    -- 1203: x254 += einsum("ijkl->ijkl", x253)
    .add 364 (.ein [(366, [0, 1, 2, 3])] [0, 1, 2, 3]) 1 1,
    -- 1204: del x253
    .del 366,
    -- 1205: x254 += einsum("ijkl->ijkl", v.aabb.oooo)
    .add 364 (.ein [(51, [0, 1, 2, 3])] [0, 1, 2, 3]) 1 1,
    -- 1206: x255 = np.zeros((nocc[0], nocc[1], nvir[0], nvir[1]), dtype=types[float])
    .zeros 367 [0, 4, 1, 5],
    -- 1207: x255 += einsum("ijab,ikjl->klab", t2.abab, x254)
    .add 367 (.ein [(14, [0, 1, 2, 3]), (364, [0, 4, 1, 5])] [4, 5, 2, 3]) 1 1,
    -- 1208: del x254
    .del 364,
    -- 1209: t2new_baba += einsum("ijab->jiba", x255)
    .add 167 (.ein [(367, [0, 1, 2, 3])] [1, 0, 3, 2]) 1 1,
    -- 1210: t2new_abab += einsum("ijab->ijab", x255)
    .add 168 (.ein [(367, [0, 1, 2, 3])] [0, 1, 2, 3]) 1 1,
    -- 1211: del x255
    .del 367,
    -- 1212: x256 = np.zeros((nocc[1], nocc[1], nvir[0], nvir[0]), dtype=types[float])
    .zeros 368 [4, 4, 1, 1],
    -- 1213: x256 += einsum("ia,jabc->ijbc", t1.bb, v.bbaa.ovvv)
    .add 368 (.ein [(17, [0, 1]), (27, [2, 1, 3, 4])] [0, 2, 3, 4]) 1 1,
    -- 1214: x257 = np.zeros((nocc[1], nocc[1], nvir[0], nvir[0]), dtype=types[float])
    .zeros 369 [4, 4, 1, 1],
    -- 1215: x257 += einsum("ijab->jiab", x256)
    .add 369 (.ein [(368, [0, 1, 2, 3])] [1, 0, 2, 3]) 1 1,
    -- 1216: x287 = np.zeros((nocc[1], nocc[1], nvir[0], nvir[0]), dtype=types[float])
    .zeros 370 [4, 4, 1, 1],
    -- 1217: x287 += einsum("ijab->jiab", x256)
    .add 370 (.ein [(368, [0, 1, 2, 3])] [1, 0, 2, 3]) 1 1,
    -- 1218: del x256
    .del 368,
    -- 1219: x257 += einsum("ijab->ijab", v.bbaa.oovv)
    .add 369 (.ein [(52, [0, 1, 2, 3])] [0, 1, 2, 3]) 1 1,
    -- 1220: x258 = np.zeros((nocc[0], nocc[1], nvir[0], nvir[1]), dtype=types[float])
    .zeros 371 [0, 4, 1, 5],
    -- 1221: x258 += einsum("ijab,jkca->ikcb", t2.abab, x257)
    .add 371 (.ein [(14, [0, 1, 2, 3]), (369, [1, 4, 5, 2])] [0, 4, 5, 3]) 1 1,
    -- 1222: del x257
    .del 369,
    -- 1223: t2new_baba -= einsum("ijab->jiba", x258)
    .add 167 (.ein [(371, [0, 1, 2, 3])] [1, 0, 3, 2]) (-1) 1,
    -- 1224: t2new_abab -= einsum("ijab->ijab", x258)
    .add 168 (.ein [(371, [0, 1, 2, 3])] [0, 1, 2, 3]) (-1) 1,
    -- 1225: del x258
    .del 371,
    -- 1226: x259 = np.zeros((nocc[0], nocc[0], nocc[1], nvir[1]), dtype=types[float])
    .zeros 372 [0, 0, 4, 5],
    -- 1227: x259 += einsum("ia,jkba->jkib", t1.bb, v.aabb.oovv)
    .add 372 (.ein [(17, [0, 1]), (50, [2, 3, 4, 1])] [2, 3, 0, 4]) 1 1,
    -- 1228: x271 += einsum("ijka->ijka", x259)
    .add 116 (.ein [(372, [0, 1, 2, 3])] [0, 1, 2, 3]) 1 1,
    -- 1229: del x259
    .del 372,
    -- 1230: x260 = np.zeros((nocc[0], nocc[0], nocc[1], nvir[1]), dtype=types[float])
    .zeros 373 [0, 0, 4, 5],
    -- 1231: x260 += einsum("ijab,kacb->ikjc", t2.abab, v.aabb.ovvv)
    .add 373 (.ein [(14, [0, 1, 2, 3]), (36, [4, 2, 5, 3])] [0, 4, 1, 5]) 1 1,
    -- 1232: x271 += einsum("ijka->jika", x260)
    .add 116 (.ein [(373, [0, 1, 2, 3])] [1, 0, 2, 3]) 1 1,
    -- 1233: del x260
    .del 373,
    -- 1234: x261 += einsum("ijka->ikja", v.aaaa.ooov)
    .add 78 (.ein [(10, [0, 1, 2, 3])] [0, 2, 1, 3]) 1 1,
    -- 1235: x261 += einsum("ijka->kija", v.aaaa.ooov) * -1
    .add 78 (.ein [(10, [0, 1, 2, 3])] [2, 0, 1, 3]) (-1) 1,
    -- 1236: x262 = np.zeros((nocc[0], nocc[0], nocc[1], nvir[1]), dtype=types[float])
    .zeros 374 [0, 0, 4, 5],
    -- 1237: x262 += einsum("ijab,ikla->kljb", t2.abab, x261)
    .add 374 (.ein [(14, [0, 1, 2, 3]), (78, [0, 4, 5, 2])] [4, 5, 1, 3]) 1 1,
    -- 1238: del x261
    .del 78,
    -- 1239: x271 += einsum("ijka->ijka", x262) * -1
    .add 116 (.ein [(374, [0, 1, 2, 3])] [0, 1, 2, 3]) (-1) 1,
    -- 1240: del x262
    .del 374,
    -- 1241: x267 += einsum("ijkl->ijkl", v.aabb.oooo)
    .add 196 (.ein [(51, [0, 1, 2, 3])] [0, 1, 2, 3]) 1 1,
    -- 1242: x268 = np.zeros((nocc[0], nocc[0], nocc[1], nvir[1]), dtype=types[float])
    .zeros 375 [0, 0, 4, 5],
    -- 1243: x268 += einsum("ia,jkil->jkla", t1.bb, x267)
    .add 375 (.ein [(17, [0, 1]), (196, [2, 3, 0, 4])] [2, 3, 4, 1]) 1 1,
    -- 1244: del x267
    .del 196,
    -- 1245: x271 += einsum("ijka->ijka", x268) * -1
    .add 116 (.ein [(375, [0, 1, 2, 3])] [0, 1, 2, 3]) (-1) 1,
    -- 1246: del x268
    .del 375,
    -- 1247: x269 += einsum("iabj->ijab", v.aabb.ovvo)
    .add 302 (.ein [(44, [0, 1, 2, 3])] [0, 3, 1, 2]) 1 1,
    -- 1248: x270 = np.zeros((nocc[0], nocc[0], nocc[1], nvir[1]), dtype=types[float])
    .zeros 376 [0, 0, 4, 5],
    -- 1249: x270 += einsum("ia,jkab->jikb", t1.aa, x269)
    .add 376 (.ein [(8, [0, 1]), (302, [2, 3, 1, 4])] [2, 0, 3, 4]) 1 1,
    -- 1250: del x269
    .del 302,
    -- 1251: x271 += einsum("ijka->ijka", x270)
    .add 116 (.ein [(376, [0, 1, 2, 3])] [0, 1, 2, 3]) 1 1,
    -- 1252: del x270
    .del 376,
    -- 1253: x271 += einsum("ijak->ijka", v.aabb.oovo)
    .add 116 (.ein [(53, [0, 1, 2, 3])] [0, 1, 3, 2]) 1 1,
    -- 1254: x272 = np.zeros((nocc[0], nocc[1], nvir[0], nvir[1]), dtype=types[float])
    .zeros 377 [0, 4, 1, 5],
    -- 1255: x272 += einsum("ia,ijkb->jkab", t1.aa, x271)
    .add 377 (.ein [(8, [0, 1]), (116, [0, 2, 3, 4])] [2, 3, 1, 4]) 1 1,
    -- 1256: del x271
    .del 116,
    -- 1257: t2new_baba += einsum("ijab->jiba", x272) * -1
    .add 167 (.ein [(377, [0, 1, 2, 3])] [1, 0, 3, 2]) (-1) 1,
    -- 1258: t2new_abab += einsum("ijab->ijab", x272) * -1
    .add 168 (.ein [(377, [0, 1, 2, 3])] [0, 1, 2, 3]) (-1) 1,
    -- 1259: del x272
    .del 377,
    -- 1260: x273 = np.zeros((nocc[0], nocc[0], nvir[0], nvir[0]), dtype=types[float])
    .zeros 378 [0, 0, 1, 1],
    -- 1261: x273 += einsum("iajb->jiab", v.aaaa.ovov)
    .add 378 (.ein [(9, [0, 1, 2, 3])] [2, 0, 1, 3]) 1 1,
    -- 1262: x273 += einsum("iajb->jiba", v.aaaa.ovov) * -1
    .add 378 (.ein [(9, [0, 1, 2, 3])] [2, 0, 3, 1]) (-1) 1,
    -- 1263: x274 = np.zeros((nvir[0], nvir[0]), dtype=types[float])
    .zeros 379 [1, 1],
    -- 1264: x274 += einsum("ijab,ijca->cb", t2.aaaa, x273)
    .add 379 (.ein [(11, [0, 1, 2, 3]), (378, [0, 1, 4, 2])] [4, 3]) 1 1,
    -- 1265: del x273
    .del 378,
    -- 1266: x275 += einsum("ab->ba", x274) * -1
    .add 83 (.ein [(379, [0, 1])] [1, 0]) (-1) 1,
    -- 1267: x307 += einsum("ab->ba", x274) * -1
    .add 84 (.ein [(379, [0, 1])] [1, 0]) (-1) 1,
    -- 1268: del x274
    .del 379,
    -- 1269: x275 += einsum("ab->ab", f.aa.vv)
    .add 83 (.ein [(28, [0, 1])] [0, 1]) 1 1,
    -- 1270: x276 = np.zeros((nocc[0], nocc[1], nvir[0], nvir[1]), dtype=types[float])
    .zeros 380 [0, 4, 1, 5],
    -- 1271: x276 += einsum("ab,ijbc->ijac", x275, t2.abab)
    .add 380 (.ein [(83, [0, 1]), (14, [2, 3, 1, 4])] [2, 3, 0, 4]) 1 1,
    -- 1272: del x275
    .del 83,
    -- 1273: t2new_baba += einsum("ijab->jiba", x276)
    .add 167 (.ein [(380, [0, 1, 2, 3])] [1, 0, 3, 2]) 1 1,
    -- 1274: t2new_abab += einsum("ijab->ijab", x276)
    .add 168 (.ein [(380, [0, 1, 2, 3])] [0, 1, 2, 3]) 1 1,
    -- 1275: del x276
    .del 380,
    -- 1276: x278 += einsum("ab->ab", f.bb.vv)
    .add 141 (.ein [(37, [0, 1])] [0, 1]) 1 1,
    -- 1277: x279 = np.zeros((nocc[0], nocc[1], nvir[0], nvir[1]), dtype=types[float])
    .zeros 381 [0, 4, 1, 5],
    -- 1278: x279 += einsum("ab,ijcb->ijca", x278, t2.abab)
    .add 381 (.ein [(141, [0, 1]), (14, [2, 3, 4, 1])] [2, 3, 4, 0]) 1 1,
    -- 1279: del x278
    .del 141,
    -- 1280: t2new_baba += einsum("ijab->jiba", x279)
    .add 167 (.ein [(381, [0, 1, 2, 3])] [1, 0, 3, 2]) 1 1,
    -- 1281: t2new_abab += einsum("ijab->ijab", x279)
    .add 168 (.ein [(381, [0, 1, 2, 3])] [0, 1, 2, 3]) 1 1,
    -- 1282: del x279
    .del 381,
    -- 1283: x280 = np.zeros((nocc[0], nocc[1], nocc[1], nvir[0]), dtype=types[float])
    .zeros 382 [0, 4, 4, 1],
    -- 1284: x280 += einsum("ia,jabk->kijb", t1.bb, v.bbaa.ovvo)
    .add 382 (.ein [(17, [0, 1]), (39, [2, 1, 3, 4])] [4, 0, 2, 3]) 1 1,
    -- 1285: x289 += einsum("ijka->ikja", x280)
    .add 91 (.ein [(382, [0, 1, 2, 3])] [0, 2, 1, 3]) 1 1,
    -- 1286: del x280
    .del 382,
    -- 1287: x281 = np.zeros((nocc[0], nocc[1], nocc[1], nvir[0]), dtype=types[float])
    .zeros 383 [0, 4, 4, 1],
    -- 1288: x281 += einsum("ijab,kbca->ijkc", t2.abab, v.bbaa.ovvv)
    .add 383 (.ein [(14, [0, 1, 2, 3]), (27, [4, 3, 5, 2])] [0, 1, 4, 5]) 1 1,
    -- 1289: x289 += einsum("ijka->ikja", x281)
    .add 91 (.ein [(383, [0, 1, 2, 3])] [0, 2, 1, 3]) 1 1,
    -- 1290: del x281
    .del 383,
    -- 1291: x282 += einsum("ijka->ikja", v.bbbb.ooov)
    .add 185 (.ein [(30, [0, 1, 2, 3])] [0, 2, 1, 3]) 1 1,
    -- 1292: x282 += einsum("ijka->kija", v.bbbb.ooov) * -1
    .add 185 (.ein [(30, [0, 1, 2, 3])] [2, 0, 1, 3]) (-1) 1,
    -- 1293: x283 = np.zeros((nocc[0], nocc[1], nocc[1], nvir[0]), dtype=types[float])
    .zeros 384 [0, 4, 4, 1],
    -- 1294: x283 += einsum("ijab,jklb->ikla", t2.abab, x282)
    .add 384 (.ein [(14, [0, 1, 2, 3]), (185, [1, 4, 5, 3])] [0, 4, 5, 2]) 1 1,
    -- 1295: del x282
    .del 185,
    -- 1296: x289 += einsum("ijka->ijka", x283) * -1
    .add 91 (.ein [(384, [0, 1, 2, 3])] [0, 1, 2, 3]) (-1) 1,
    -- 1297: del x283
    .del 384,
    -- 1298: x287 += einsum("ijab->ijab", v.bbaa.oovv)
    .add 370 (.ein [(52, [0, 1, 2, 3])] [0, 1, 2, 3]) 1 1,
    -- 1299: x288 = np.zeros((nocc[0], nocc[1], nocc[1], nvir[0]), dtype=types[float])
    .zeros 385 [0, 4, 4, 1],
    -- 1300: x288 += einsum("ia,jkba->ijkb", t1.aa, x287)
    .add 385 (.ein [(8, [0, 1]), (370, [2, 3, 4, 1])] [0, 2, 3, 4]) 1 1,
    -- 1301: del x287
    .del 370,
    -- 1302: x289 += einsum("ijka->ijka", x288)
    .add 91 (.ein [(385, [0, 1, 2, 3])] [0, 1, 2, 3]) 1 1,
    -- 1303: del x288
    .del 385,
    -- 1304: x289 += einsum("ijak->kija", v.bbaa.oovo)
    .add 91 (.ein [(54, [0, 1, 2, 3])] [3, 0, 1, 2]) 1 1,
    -- 1305: x290 = np.zeros((nocc[0], nocc[1], nvir[0], nvir[1]), dtype=types[float])
    .zeros 386 [0, 4, 1, 5],
    -- 1306: x290 += einsum("ia,jikb->jkba", t1.bb, x289)
    .add 386 (.ein [(17, [0, 1]), (91, [2, 0, 3, 4])] [2, 3, 4, 1]) 1 1,
    -- 1307: del x289
    .del 91,
    -- 1308: t2new_baba += einsum("ijab->jiba", x290) * -1
    .add 167 (.ein [(386, [0, 1, 2, 3])] [1, 0, 3, 2]) (-1) 1,
    -- 1309: t2new_abab += einsum("ijab->ijab", x290) * -1
    .add 168 (.ein [(386, [0, 1, 2, 3])] [0, 1, 2, 3]) (-1) 1,
    -- 1310: del x290
    .del 386,
    -- 1311: x295 = np.zeros((nocc[1], nvir[0], nvir[0], nvir[1]), dtype=types[float])
    .zeros 387 [4, 1, 1, 5],
    -- 1312: x295 += einsum("ia,bcda->ibcd", t1.bb, v.aabb.vvvv)
    .add 387 (.ein [(17, [0, 1]), (49, [2, 3, 4, 1])] [0, 2, 3, 4]) 1 1,
    -- 1313: x296 = np.zeros((nocc[1], nvir[0], nvir[0], nvir[1]), dtype=types[float])
    .zeros 388 [4, 1, 1, 5],
    -- 1314: x296 += einsum("iabc->iabc", x295)
    .add 388 (.ein [(387, [0, 1, 2, 3])] [0, 1, 2, 3]) 1 1,
    -- 1315: del x295
    .del 387,
    -- 1316: x296 += einsum("abci->iabc", v.aabb.vvvo)
    .add 388 (.ein [(55, [0, 1, 2, 3])] [3, 0, 1, 2]) 1 1,
    -- 1317: x297 = np.zeros((nocc[0], nocc[1], nvir[0], nvir[1]), dtype=types[float])
    .zeros 389 [0, 4, 1, 5],
    -- 1318: x297 += einsum("ia,jbac->ijbc", t1.aa, x296)
    .add 389 (.ein [(8, [0, 1]), (388, [2, 3, 1, 4])] [0, 2, 3, 4]) 1 1,
    -- 1319: del x296
    .del 388,
    -- 1320: t2new_baba += einsum("ijab->jiba", x297)
    .add 167 (.ein [(389, [0, 1, 2, 3])] [1, 0, 3, 2]) 1 1,
    -- 1321: t2new_abab += einsum("ijab->ijab", x297)
    .add 168 (.ein [(389, [0, 1, 2, 3])] [0, 1, 2, 3]) 1 1,
    -- 1322: del x297
    .del 389,
    -- 1323: x298 += einsum("ia->ia", f.bb.ov)
    .add 123 (.ein [(23, [0, 1])] [0, 1]) 1 1,
    -- 1324: s1new = np.zeros((nbos), dtype=types[float])
    .zeros 390 [2],
    -- 1325: s1new += einsum("ia,wia->w", x298, u11.bb)
    .add 390 (.ein [(123, [0, 1]), (22, [2, 0, 1])] [2]) 1 1,
    -- 1326: del x298
    .del 123,
    -- 1327: x299 += einsum("ia->ia", f.aa.ov)
    .add 95 (.ein [(19, [0, 1])] [0, 1]) 1 1,
    -- 1328: s1new += einsum("ia,wia->w", x299, u11.aa)
    .add 390 (.ein [(95, [0, 1]), (18, [2, 0, 1])] [2]) 1 1,
    -- 1329: del x299
    .del 95,
    -- 1330: x300 = np.zeros((nbos, nocc[0], nvir[0]), dtype=types[float])
    .zeros 391 [2, 0, 1],
    -- 1331: x300 += einsum("wia,jbia->wjb", u11.bb, v.aabb.ovov)
    .add 391 (.ein [(22, [0, 1, 2]), (13, [3, 4, 1, 2])] [0, 3, 4]) 1 1,
    -- 1332: x302 += einsum("wia->wia", x300)
    .add 113 (.ein [(391, [0, 1, 2])] [0, 1, 2]) 1 1,
    -- 1333: del x300
    .del 391,
    -- 1334: x302 += einsum("wia->wia", gc.aa.bov)
    .add 113 (.ein [(63, [0, 1, 2])] [0, 1, 2]) 1 1,
    -- 1335: x309 += einsum("ia,wja->wji", t1.aa, x302)
    .add 165 (.ein [(8, [0, 1]), (113, [2, 3, 1])] [2, 3, 0]) 1 1,
    -- 1336: u11new_aa += einsum("wia,ijba->wjb", x302, x10)
    .add 149 (.ein [(113, [0, 1, 2]), (118, [1, 3, 4, 2])] [0, 3, 4]) 1 1,
    -- 1337: del x10
    .del 118,
    -- 1338: u11new_bb += einsum("wia,ijab->wjb", x302, t2.abab)
    .add 205 (.ein [(113, [0, 1, 2]), (14, [1, 3, 2, 4])] [0, 3, 4]) 1 1,
    -- 1339: del x302
    .del 113,
    -- 1340: x303 = np.zeros((nbos, nocc[1], nvir[1]), dtype=types[float])
    .zeros 392 [2, 4, 5],
    -- 1341: x303 += einsum("wia,iajb->wjb", u11.aa, v.aabb.ovov)
    .add 392 (.ein [(18, [0, 1, 2]), (13, [1, 2, 3, 4])] [0, 3, 4]) 1 1,
    -- 1342: x305 += einsum("wia->wia", x303)
    .add 143 (.ein [(392, [0, 1, 2])] [0, 1, 2]) 1 1,
    -- 1343: del x303
    .del 392,
    -- 1344: x305 += einsum("wia->wia", gc.bb.bov)
    .add 143 (.ein [(67, [0, 1, 2])] [0, 1, 2]) 1 1,
    -- 1345: x318 += einsum("ia,wja->wji", t1.bb, x305)
    .add 222 (.ein [(17, [0, 1]), (143, [2, 3, 1])] [2, 3, 0]) 1 1,
    -- 1346: u11new_aa += einsum("wia,jiba->wjb", x305, t2.abab)
    .add 149 (.ein [(143, [0, 1, 2]), (14, [3, 1, 4, 2])] [0, 3, 4]) 1 1,
    -- 1347: u11new_bb += einsum("wia,ijab->wjb", x305, x194)
    .add 205 (.ein [(143, [0, 1, 2]), (332, [1, 3, 2, 4])] [0, 3, 4]) 1 1,
    -- 1348: del x305
    .del 143,
    -- 1349: del x194
    .del 332,
    -- 1350: x307 += einsum("ab->ab", f.aa.vv)
    .add 84 (.ein [(28, [0, 1])] [0, 1]) 1 1,
    -- 1351: u11new_aa += einsum("ab,wib->wia", x307, u11.aa)
    .add 149 (.ein [(84, [0, 1]), (18, [2, 3, 1])] [2, 3, 0]) 1 1,
    -- 1352: del x307
    .del 84,
    -- 1353: x308 += einsum("ia->ia", f.aa.ov)
    .add 96 (.ein [(19, [0, 1])] [0, 1]) 1 1,
    -- 1354: x309 += einsum("ia,wja->wij", x308, u11.aa)
    .add 165 (.ein [(96, [0, 1]), (18, [2, 3, 1])] [2, 0, 3]) 1 1,
    -- 1355: del x308
    .del 96,
    -- 1356: x309 += einsum("wij->wij", gc.aa.boo)
    .add 165 (.ein [(62, [0, 1, 2])] [0, 1, 2]) 1 1,
    -- 1357: x309 += einsum("wia,jkia->wjk", u11.bb, v.aabb.ooov)
    .add 165 (.ein [(22, [0, 1, 2]), (15, [3, 4, 1, 2])] [0, 3, 4]) 1 1,
    -- 1358: u11new_aa += einsum("ia,wij->wja", t1.aa, x309) * -1
    .add 149 (.ein [(8, [0, 1]), (165, [2, 0, 3])] [2, 3, 1]) (-1) 1,
    -- 1359: del x309
    .del 165,
    -- 1360: x310 = np.zeros((nocc[0], nvir[0], nvir[0], nvir[0]), dtype=types[float])
    .zeros 393 [0, 1, 1, 1],
    -- 1361: x310 += einsum("iabc->ibac", v.aaaa.ovvv)
    .add 393 (.ein [(12, [0, 1, 2, 3])] [0, 2, 1, 3]) 1 1,
    -- 1362: x310 -= einsum("iabc->ibca", v.aaaa.ovvv)
    .add 393 (.ein [(12, [0, 1, 2, 3])] [0, 2, 3, 1]) (-1) 1,
    -- 1363: x311 = np.zeros((nbos, nvir[0], nvir[0]), dtype=types[float])
    .zeros 394 [2, 1, 1],
    -- 1364: x311 -= einsum("wia,ibca->wbc", u11.aa, x310)
    .add 394 (.ein [(18, [0, 1, 2]), (393, [1, 3, 4, 2])] [0, 3, 4]) (-1) 1,
    -- 1365: del x310
    .del 393,
    -- 1366: x311 += einsum("wab->wab", gc.aa.bvv)
    .add 394 (.ein [(65, [0, 1, 2])] [0, 1, 2]) 1 1,
    -- 1367: x311 += einsum("wia,iabc->wbc", u11.bb, v.bbaa.ovvv)
    .add 394 (.ein [(22, [0, 1, 2]), (27, [1, 2, 3, 4])] [0, 3, 4]) 1 1,
    -- 1368: u11new_aa += einsum("ia,wba->wib", t1.aa, x311)
    .add 149 (.ein [(8, [0, 1]), (394, [2, 3, 1])] [2, 0, 3]) 1 1,
    -- 1369: del x311
    .del 394,
    -- 1370: x312 = np.zeros((nbos, nbos), dtype=types[float])
    .zeros 395 [2, 2],
    -- 1371: x312 += einsum("wia,xia->wx", g.aa.bov, u11.aa)
    .add 395 (.ein [(2, [0, 1, 2]), (18, [3, 1, 2])] [0, 3]) 1 1,
    -- 1372: x314 = np.zeros((nbos, nbos), dtype=types[float])
    .zeros 396 [2, 2],
    -- 1373: x314 += einsum("wx->wx", x312)
    .add 396 (.ein [(395, [0, 1])] [0, 1]) 1 1,
    -- 1374: del x312
    .del 395,
    -- 1375: x313 = np.zeros((nbos, nbos), dtype=types[float])
    .zeros 397 [2, 2],
    -- 1376: x313 += einsum("wia,xia->wx", g.bb.bov, u11.bb)
    .add 397 (.ein [(6, [0, 1, 2]), (22, [3, 1, 2])] [0, 3]) 1 1,
    -- 1377: x314 += einsum("wx->wx", x313)
    .add 396 (.ein [(397, [0, 1])] [0, 1]) 1 1,
    -- 1378: del x313
    .del 397,
    -- 1379: x314 += einsum("wx->wx", w)
    .add 396 (.ein [(56, [0, 1])] [0, 1]) 1 1,
    -- 1380: u11new_aa += einsum("wx,wia->xia", x314, u11.aa)
    .add 149 (.ein [(396, [0, 1]), (18, [0, 2, 3])] [1, 2, 3]) 1 1,
    -- 1381: u11new_bb += einsum("wx,wia->xia", x314, u11.bb)
    .add 205 (.ein [(396, [0, 1]), (22, [0, 2, 3])] [1, 2, 3]) 1 1,
    -- 1382: del x314
    .del 396,
    -- 1383: x316 += einsum("ab->ab", f.bb.vv)
    .add 133 (.ein [(37, [0, 1])] [0, 1]) 1 1,
    -- 1384: u11new_bb += einsum("ab,wib->wia", x316, u11.bb)
    .add 205 (.ein [(133, [0, 1]), (22, [2, 3, 1])] [2, 3, 0]) 1 1,
    -- 1385: del x316
    .del 133,
    -- 1386: x317 += einsum("ia->ia", f.bb.ov)
    .add 124 (.ein [(23, [0, 1])] [0, 1]) 1 1,
    -- 1387: x318 += einsum("ia,wja->wij", x317, u11.bb)
    .add 222 (.ein [(124, [0, 1]), (22, [2, 3, 1])] [2, 0, 3]) 1 1,
    -- 1388: del x317
    .del 124,
    -- 1389: x318 += einsum("wij->wij", gc.bb.boo)
    .add 222 (.ein [(66, [0, 1, 2])] [0, 1, 2]) 1 1,
    -- 1390: x318 += einsum("wia,iajk->wjk", u11.aa, v.aabb.ovoo)
    .add 222 (.ein [(18, [0, 1, 2]), (32, [1, 2, 3, 4])] [0, 3, 4]) 1 1,
    -- 1391: u11new_bb += einsum("ia,wij->wja", t1.bb, x318) * -1
    .add 205 (.ein [(17, [0, 1]), (222, [2, 0, 3])] [2, 3, 1]) (-1) 1,
    -- 1392: del x318
    .del 222,
    -- 1393: x319 = np.zeros((nocc[1], nvir[1], nvir[1], nvir[1]), dtype=types[float])
    .zeros 398 [4, 5, 5, 5],
    -- 1394: x319 += einsum("iabc->ibac", v.bbbb.ovvv)
    .add 398 (.ein [(31, [0, 1, 2, 3])] [0, 2, 1, 3]) 1 1,
    -- 1395: x319 -= einsum("iabc->ibca", v.bbbb.ovvv)
    .add 398 (.ein [(31, [0, 1, 2, 3])] [0, 2, 3, 1]) (-1) 1,
    -- 1396: x320 = np.zeros((nbos, nvir[1], nvir[1]), dtype=types[float])
    .zeros 399 [2, 5, 5],
    -- 1397: x320 -= einsum("wia,ibca->wbc", u11.bb, x319)
    .add 399 (.ein [(22, [0, 1, 2]), (398, [1, 3, 4, 2])] [0, 3, 4]) (-1) 1,
    -- 1398: del x319
    .del 398,
    -- 1399: x320 += einsum("wab->wab", gc.bb.bvv)
    .add 399 (.ein [(69, [0, 1, 2])] [0, 1, 2]) 1 1,
    -- 1400: x320 += einsum("wia,iabc->wbc", u11.aa, v.aabb.ovvv)
    .add 399 (.ein [(18, [0, 1, 2]), (36, [1, 2, 3, 4])] [0, 3, 4]) 1 1,
    -- 1401: u11new_bb += einsum("ia,wba->wib", t1.bb, x320)
    .add 205 (.ein [(17, [0, 1]), (399, [2, 3, 1])] [2, 0, 3]) 1 1,
    -- 1402: del x320
    .del 399,
    -- 1403: t1new_aa += einsum("ai->ia", f.aa.vo)
    .add 79 (.ein [(57, [0, 1])] [1, 0]) 1 1,
    -- 1404: t1new_aa += einsum("ijab,jbca->ic", t2.abab, v.bbaa.ovvv)
    .add 79 (.ein [(14, [0, 1, 2, 3]), (27, [1, 3, 4, 2])] [0, 4]) 1 1,
    -- 1405: t1new_aa += einsum("ia,iabj->jb", t1.bb, v.bbaa.ovvo)
    .add 79 (.ein [(17, [0, 1]), (39, [0, 1, 2, 3])] [3, 2]) 1 1,
    -- 1406: t1new_aa += einsum("w,wai->ia", s1, g.aa.bvo)
    .add 79 (.ein [(16, [0]), (1, [0, 1, 2])] [2, 1]) 1 1,
    -- 1407: t1new_aa += einsum("wab,wib->ia", g.aa.bvv, u11.aa)
    .add 79 (.ein [(3, [0, 1, 2]), (18, [0, 3, 2])] [3, 1]) 1 1,
    -- 1408: t1new_bb += einsum("wab,wib->ia", g.bb.bvv, u11.bb)
    .add 117 (.ein [(7, [0, 1, 2]), (22, [0, 3, 2])] [3, 1]) 1 1,
    -- 1409: t1new_bb += einsum("ia,iabj->jb", t1.aa, v.aabb.ovvo)
    .add 117 (.ein [(8, [0, 1]), (44, [0, 1, 2, 3])] [3, 2]) 1 1,
    -- 1410: t1new_bb += einsum("ijab,iacb->jc", t2.abab, v.aabb.ovvv)
    .add 117 (.ein [(14, [0, 1, 2, 3]), (36, [0, 2, 4, 3])] [1, 4]) 1 1,
    -- 1411: t1new_bb += einsum("ai->ia", f.bb.vo)
    .add 117 (.ein [(58, [0, 1])] [1, 0]) 1 1,
    -- 1412: t1new_bb += einsum("w,wai->ia", s1, g.bb.bvo)
    .add 117 (.ein [(16, [0]), (5, [0, 1, 2])] [2, 1]) 1 1,
    -- 1413: t2new_aaaa -= einsum("aibj->jiab", v.aaaa.vovo)
    .add 260 (.ein [(59, [0, 1, 2, 3])] [3, 1, 0, 2]) (-1) 1,
    -- 1414: t2new_aaaa += einsum("aibj->jiba", v.aaaa.vovo)
    .add 260 (.ein [(59, [0, 1, 2, 3])] [3, 1, 2, 0]) 1 1,
    -- 1415: t2new_bbbb -= einsum("aibj->jiab", v.bbbb.vovo)
    .add 244 (.ein [(60, [0, 1, 2, 3])] [3, 1, 0, 2]) (-1) 1,
    -- 1416: t2new_bbbb += einsum("aibj->jiba", v.bbbb.vovo)
    .add 244 (.ein [(60, [0, 1, 2, 3])] [3, 1, 2, 0]) 1 1,
    -- 1417: t2new_baba += einsum("aibj->jiba", v.aabb.vovo)
    .add 167 (.ein [(61, [0, 1, 2, 3])] [3, 1, 2, 0]) 1 1,
    -- 1418: t2new_abab += einsum("aibj->ijab", v.aabb.vovo)
    .add 168 (.ein [(61, [0, 1, 2, 3])] [1, 3, 0, 2]) 1 1,
    -- 1419: s1new += einsum("ia,wia->w", t1.aa, gc.aa.bov)
    .add 390 (.ein [(8, [0, 1]), (63, [2, 0, 1])] [2]) 1 1,
    -- 1420: s1new += einsum("w->w", G)
    .add 390 (.ein [(29, [0])] [0]) 1 1,
    -- 1421: s1new += einsum("w,wx->x", s1, w)
    .add 390 (.ein [(16, [0]), (56, [0, 1])] [1]) 1 1,
    -- 1422: s1new += einsum("ia,wia->w", t1.bb, gc.bb.bov)
    .add 390 (.ein [(17, [0, 1]), (67, [2, 0, 1])] [2]) 1 1,
    -- 1423: u11new_aa += einsum("wai->wia", gc.aa.bvo)
    .add 149 (.ein [(64, [0, 1, 2])] [0, 2, 1]) 1 1,
    -- 1424: u11new_aa += einsum("wia,iabj->wjb", u11.bb, v.bbaa.ovvo)
    .add 149 (.ein [(22, [0, 1, 2]), (39, [1, 2, 3, 4])] [0, 4, 3]) 1 1,
    -- 1425: u11new_bb += einsum("wia,iabj->wjb", u11.aa, v.aabb.ovvo)
    .add 205 (.ein [(18, [0, 1, 2]), (44, [1, 2, 3, 4])] [0, 4, 3]) 1 1,
    -- 1426: u11new_bb += einsum("wai->wia", gc.bb.bvo)
    .add 205 (.ein [(68, [0, 1, 2])] [0, 2, 1]) 1 1,
    -- 1428: t1new.aa = t1new_aa
    .set 400 (.cp 79) 1 1,
    -- 1429: t1new.bb = t1new_bb
    .set 401 (.cp 117) 1 1,
    -- 1430: t2new.abab = t2new_abab
    .set 402 (.cp 168) 1 1,
    -- 1431: t2new.baba = t2new_baba
    .set 403 (.cp 167) 1 1,
    -- 1432: t2new.aaaa = t2new_aaaa
    .set 404 (.cp 260) 1 1,
    -- 1433: t2new.bbbb = t2new_bbbb
    .set 405 (.cp 244) 1 1,
    -- 1434: u11new.aa = u11new_aa
    .set 406 (.cp 149) 1 1,
    -- 1435: u11new.bb = u11new_bb
    .set 407 (.cp 205) 1 1
  ]
  ret := [(chars! "t1new.aa", 400), (chars! "t1new.bb", 401), (chars! "t2new.abab", 402), (chars! "t2new.baba", 403), (chars! "t2new.aaaa", 404), (chars! "t2new.bbbb", 405), (chars! "s1new", 390), (chars! "u11new.aa", 406), (chars! "u11new.bb", 407)]

/-- codegen/UCCSD_S_1_1.py:1439-3787 `update_lams`. -/
def update_lams : GenFun where
  args := [chars! "g.aa.boo", chars! "g.aa.bvo", chars! "g.aa.bov", chars! "g.aa.bvv", chars! "g.bb.boo", chars! "g.bb.bvo", chars! "g.bb.bov", chars! "g.bb.bvv", chars! "t1.bb", chars! "l2.abab", chars! "t1.aa", chars! "v.aabb.ovoo", chars! "v.aabb.ooov", chars! "t2.abab", chars! "v.bbaa.ovvv", chars! "v.bbaa.oovv", chars! "v.aabb.ovov", chars! "l1.aa", chars! "s1", chars! "v.aabb.ovvv", chars! "f.aa.ov", chars! "t2.aaaa", chars! "v.aaaa.oovo", chars! "v.aaaa.ovvv", chars! "v.aaaa.ovov", chars! "l2.aaaa", chars! "u11.aa", chars! "v.aaaa.ooov", chars! "v.aaaa.ovvo", chars! "v.aaaa.oovv", chars! "v.aaaa.oooo", chars! "t2.bbbb", chars! "v.bbbb.ovvv", chars! "l2.bbbb", chars! "lu11.bb", chars! "ls1", chars! "v.aabb.oooo", chars! "v.aabb.ovvo", chars! "v.aabb.oovo", chars! "v.aabb.oovv", chars! "l1.bb", chars! "lu11.aa", chars! "v.aaaa.vvvv", chars! "v.aaaa.vovv", chars! "v.aabb.vvvo", chars! "v.aabb.vvvv", chars! "v.bbaa.ovvo", chars! "v.bbbb.ovov", chars! "u11.bb", chars! "f.bb.ov", chars! "f.aa.oo", chars! "f.aa.vv", chars! "G", chars! "f.aa.vo", chars! "v.bbbb.ooov", chars! "v.bbbb.ovvo", chars! "v.bbbb.oovv", chars! "f.bb.oo", chars! "f.bb.vv", chars! "f.bb.vo", chars! "w", chars! "v.bbaa.oovo", chars! "v.bbbb.oooo", chars! "v.bbbb.oovo", chars! "v.bbbb.vvvv", chars! "v.bbbb.vovv", chars! "v.aabb.vovv"]
  body := [
    -- 1445: gc = Namespace(
    .set 67 (.tr 0 [0, 2, 1]) 1 1,
    .set 68 (.tr 1 [0, 2, 1]) 1 1,
    .set 69 (.tr 2 [0, 2, 1]) 1 1,
    .set 70 (.tr 3 [0, 2, 1]) 1 1,
    .set 71 (.tr 4 [0, 2, 1]) 1 1,
    .set 72 (.tr 5 [0, 2, 1]) 1 1,
    .set 73 (.tr 6 [0, 2, 1]) 1 1,
    .set 74 (.tr 7 [0, 2, 1]) 1 1,
    -- 1461: x0 = np.zeros((nocc[0], nocc[1], nocc[1], nvir[0]), dtype=types[float])
    .zeros 75 [0, 4, 4, 1],
    -- 1462: x0 += einsum("ia,bajk->jkib", t1.bb, l2.abab)
    .add 75 (.ein [(8, [0, 1]), (9, [2, 1, 3, 4])] [3, 4, 0, 2]) 1 1,
    -- 1463: x2 = np.zeros((nocc[0], nocc[0], nocc[1], nocc[1]), dtype=types[float])
    .zeros 76 [0, 0, 4, 4],
    -- 1464: x2 += einsum("ia,jkla->jikl", t1.aa, x0)
    .add 76 (.ein [(10, [0, 1]), (75, [2, 3, 4, 1])] [2, 0, 3, 4]) 1 1,
    -- 1465: x67 = np.zeros((nocc[0], nocc[0], nocc[1], nocc[1]), dtype=types[float])
    .zeros 77 [0, 0, 4, 4],
    -- 1466: x67 += einsum("ijkl->ijkl", x2)
    .add 77 (.ein [(76, [0, 1, 2, 3])] [0, 1, 2, 3]) 1 1,
    -- 1467: x461 = np.zeros((nocc[0], nocc[0], nocc[1], nocc[1]), dtype=types[float])
    .zeros 78 [0, 0, 4, 4],
    -- 1468: x461 += einsum("ijkl->ijkl", x2)
    .add 78 (.ein [(76, [0, 1, 2, 3])] [0, 1, 2, 3]) 1 1,
    -- 1469: l1new_aa = np.zeros((nvir[0], nocc[0]), dtype=types[float])
    .zeros 79 [1, 0],
    -- 1470: l1new_aa += einsum("iajk,likj->al", v.aabb.ovoo, x2)
    .add 79 (.ein [(11, [0, 1, 2, 3]), (76, [4, 0, 3, 2])] [1, 4]) 1 1,
    -- 1471: l1new_bb = np.zeros((nvir[1], nocc[1]), dtype=types[float])
    .zeros 80 [5, 4],
    -- 1472: l1new_bb += einsum("ijka,jilk->al", v.aabb.ooov, x2)
    .add 80 (.ein [(12, [0, 1, 2, 3]), (76, [1, 0, 4, 2])] [3, 4]) 1 1,
    -- 1473: del x2
    .del 76,
    -- 1474: x52 = np.zeros((nocc[0], nocc[1], nvir[0], nvir[1]), dtype=types[float])
    .zeros 81 [0, 4, 1, 5],
    -- 1475: x52 += einsum("ia,jikb->jkba", t1.bb, x0)
    .add 81 (.ein [(8, [0, 1]), (75, [2, 0, 3, 4])] [2, 3, 4, 1]) 1 1,
    -- 1476: x68 = np.zeros((nocc[0], nocc[0], nocc[1], nvir[1]), dtype=types[float])
    .zeros 82 [0, 0, 4, 5],
    -- 1477: x68 += einsum("ijab,kjla->kilb", t2.abab, x0)
    .add 82 (.ein [(13, [0, 1, 2, 3]), (75, [4, 1, 5, 2])] [4, 0, 5, 3]) 1 1,
    -- 1478: x176 = np.zeros((nocc[1], nvir[1]), dtype=types[float])
    .zeros 83 [4, 5],
    -- 1479: x176 += einsum("ijab,ijka->kb", t2.abab, x0)
    .add 83 (.ein [(13, [0, 1, 2, 3]), (75, [0, 1, 4, 2])] [4, 3]) 1 1,
    -- 1480: x186 = np.zeros((nocc[1], nvir[1]), dtype=types[float])
    .zeros 84 [4, 5],
    -- 1481: x186 += einsum("ia->ia", x176)
    .add 84 (.ein [(83, [0, 1])] [0, 1]) 1 1,
    -- 1482: del x176
    .del 83,
    -- 1483: x252 = np.zeros((nocc[1], nocc[1], nocc[1], nvir[1]), dtype=types[float])
    .zeros 85 [4, 4, 4, 5],
    -- 1484: x252 += einsum("ijab,ikla->kjlb", t2.abab, x0)
    .add 85 (.ein [(13, [0, 1, 2, 3]), (75, [0, 4, 5, 2])] [4, 1, 5, 3]) 1 1,
    -- 1485: x295 = np.zeros((nocc[0], nocc[0], nvir[0], nvir[0]), dtype=types[float])
    .zeros 86 [0, 0, 1, 1],
    -- 1486: x295 += einsum("iajk,lkjb->liba", v.aabb.ovoo, x0)
    .add 86 (.ein [(11, [0, 1, 2, 3]), (75, [4, 3, 2, 5])] [4, 0, 5, 1]) 1 1,
    -- 1487: x333 = np.zeros((nocc[0], nocc[0], nvir[0], nvir[0]), dtype=types[float])
    .zeros 87 [0, 0, 1, 1],
    -- 1488: x333 -= einsum("ijab->ijab", x295)
    .add 87 (.ein [(86, [0, 1, 2, 3])] [0, 1, 2, 3]) (-1) 1,
    -- 1489: del x295
    .del 86,
    -- 1490: x430 = np.zeros((nocc[0], nocc[1], nvir[0], nvir[1]), dtype=types[float])
    .zeros 88 [0, 4, 1, 5],
    -- 1491: x430 += einsum("iabc,jkib->jkca", v.bbaa.ovvv, x0)
    .add 88 (.ein [(14, [0, 1, 2, 3]), (75, [4, 5, 0, 2])] [4, 5, 3, 1]) 1 1,
    -- 1492: l2new_baba = np.zeros((nvir[1], nvir[0], nocc[1], nocc[0]), dtype=types[float])
    .zeros 89 [5, 1, 4, 0],
    -- 1493: l2new_baba -= einsum("ijab->baji", x430)
    .add 89 (.ein [(88, [0, 1, 2, 3])] [3, 2, 1, 0]) (-1) 1,
    -- 1494: l2new_abab = np.zeros((nvir[0], nvir[1], nocc[0], nocc[1]), dtype=types[float])
    .zeros 90 [1, 5, 0, 4],
    -- 1495: l2new_abab -= einsum("ijab->abij", x430)
    .add 90 (.ein [(88, [0, 1, 2, 3])] [2, 3, 0, 1]) (-1) 1,
    -- 1496: del x430
    .del 88,
    -- 1497: l1new_aa -= einsum("ijab,kjia->bk", v.bbaa.oovv, x0)
    .add 79 (.ein [(15, [0, 1, 2, 3]), (75, [4, 1, 0, 2])] [3, 4]) (-1) 1,
    -- 1498: x1 = np.zeros((nocc[0], nocc[0], nocc[1], nocc[1]), dtype=types[float])
    .zeros 91 [0, 0, 4, 4],
    -- 1499: x1 += einsum("abij,klab->ikjl", l2.abab, t2.abab)
    .add 91 (.ein [(9, [0, 1, 2, 3]), (13, [4, 5, 0, 1])] [2, 4, 3, 5]) 1 1,
    -- 1500: x67 += einsum("ijkl->ijkl", x1)
    .add 77 (.ein [(91, [0, 1, 2, 3])] [0, 1, 2, 3]) 1 1,
    -- 1501: x68 += einsum("ia,jkil->jkla", t1.bb, x67)
    .add 82 (.ein [(8, [0, 1]), (77, [2, 3, 0, 4])] [2, 3, 4, 1]) 1 1,
    -- 1502: x258 = np.zeros((nocc[0], nocc[1], nocc[1], nvir[0]), dtype=types[float])
    .zeros 92 [0, 4, 4, 1],
    -- 1503: x258 += einsum("ia,ijkl->jkla", t1.aa, x67)
    .add 92 (.ein [(10, [0, 1]), (77, [0, 2, 3, 4])] [2, 3, 4, 1]) 1 1,
    -- 1504: del x67
    .del 77,
    -- 1505: x461 += einsum("ijkl->ijkl", x1)
    .add 78 (.ein [(91, [0, 1, 2, 3])] [0, 1, 2, 3]) 1 1,
    -- 1506: x462 = np.zeros((nocc[0], nocc[1], nvir[0], nvir[1]), dtype=types[float])
    .zeros 93 [0, 4, 1, 5],
    -- 1507: x462 += einsum("iajb,kilj->klab", v.aabb.ovov, x461)
    .add 93 (.ein [(16, [0, 1, 2, 3]), (78, [4, 0, 5, 2])] [4, 5, 1, 3]) 1 1,
    -- 1508: del x461
    .del 78,
    -- 1509: l2new_baba += einsum("ijab->baji", x462)
    .add 89 (.ein [(93, [0, 1, 2, 3])] [3, 2, 1, 0]) 1 1,
    -- 1510: l2new_abab += einsum("ijab->abij", x462)
    .add 90 (.ein [(93, [0, 1, 2, 3])] [2, 3, 0, 1]) 1 1,
    -- 1511: del x462
    .del 93,
    -- 1512: l1new_aa += einsum("iajk,likj->al", v.aabb.ovoo, x1)
    .add 79 (.ein [(11, [0, 1, 2, 3]), (91, [4, 0, 3, 2])] [1, 4]) 1 1,
    -- 1513: l1new_bb += einsum("ijka,jilk->al", v.aabb.ooov, x1)
    .add 80 (.ein [(12, [0, 1, 2, 3]), (91, [1, 0, 4, 2])] [3, 4]) 1 1,
    -- 1514: del x1
    .del 91,
    -- 1515: x3 = np.zeros((nocc[0], nocc[0]), dtype=types[float])
    .zeros 94 [0, 0],
    -- 1516: x3 += einsum("ai,ja->ij", l1.aa, t1.aa)
    .add 94 (.ein [(17, [0, 1]), (10, [2, 0])] [1, 2]) 1 1,
    -- 1517: x163 = np.zeros((nocc[0], nocc[0]), dtype=types[float])
    .zeros 95 [0, 0],
    -- 1518: x163 += einsum("ij->ij", x3)
    .add 95 (.ein [(94, [0, 1])] [0, 1]) 1 1,
    -- 1519: x208 = np.zeros((nocc[0], nocc[0]), dtype=types[float])
    .zeros 96 [0, 0],
    -- 1520: x208 += einsum("ij->ij", x3)
    .add 96 (.ein [(94, [0, 1])] [0, 1]) 1 1,
    -- 1521: x326 = np.zeros((nocc[0], nocc[0]), dtype=types[float])
    .zeros 97 [0, 0],
    -- 1522: x326 += einsum("ij->ij", x3)
    .add 97 (.ein [(94, [0, 1])] [0, 1]) 1 1,
    -- 1523: x4 = np.zeros((nocc[0], nvir[0]), dtype=types[float])
    .zeros 98 [0, 1],
    -- 1524: x4 += einsum("w,wia->ia", s1, g.aa.bov)
    .add 98 (.ein [(18, [0]), (2, [0, 1, 2])] [1, 2]) 1 1,
    -- 1525: x6 = np.zeros((nocc[0], nvir[0]), dtype=types[float])
    .zeros 99 [0, 1],
    -- 1526: x6 += einsum("ia->ia", x4)
    .add 99 (.ein [(98, [0, 1])] [0, 1]) 1 1,
    -- 1527: x31 = np.zeros((nocc[0], nvir[0]), dtype=types[float])
    .zeros 100 [0, 1],
    -- 1528: x31 += einsum("ia->ia", x4)
    .add 100 (.ein [(98, [0, 1])] [0, 1]) 1 1,
    -- 1529: x314 = np.zeros((nocc[0], nvir[0]), dtype=types[float])
    .zeros 101 [0, 1],
    -- 1530: x314 += einsum("ia->ia", x4)
    .add 101 (.ein [(98, [0, 1])] [0, 1]) 1 1,
    -- 1531: x495 = np.zeros((nocc[0], nvir[0]), dtype=types[float])
    .zeros 102 [0, 1],
    -- 1532: x495 += einsum("ia->ia", x4)
    .add 102 (.ein [(98, [0, 1])] [0, 1]) 1 1,
    -- 1533: l1new_aa -= einsum("ij,ja->ai", x3, x4)
    .add 79 (.ein [(94, [0, 1]), (98, [1, 2])] [2, 0]) (-1) 1,
    -- 1534: del x3
    .del 94,
    -- 1535: del x4
    .del 98,
    -- 1536: x5 = np.zeros((nocc[0], nocc[0], nvir[1], nvir[1]), dtype=types[float])
    .zeros 103 [0, 0, 5, 5],
    -- 1537: x5 += einsum("abij,kjac->ikbc", l2.abab, t2.abab)
    .add 103 (.ein [(9, [0, 1, 2, 3]), (13, [4, 3, 0, 5])] [2, 4, 1, 5]) 1 1,
    -- 1538: l1new_aa += einsum("iabc,jibc->aj", v.aabb.ovvv, x5) * -1
    .add 79 (.ein [(19, [0, 1, 2, 3]), (103, [4, 0, 2, 3])] [1, 4]) (-1) 1,
    -- 1539: del x5
    .del 103,
    -- 1540: x6 += einsum("ia->ia", f.aa.ov)
    .add 99 (.ein [(20, [0, 1])] [0, 1]) 1 1,
    -- 1541: x7 = np.zeros((nocc[0], nocc[0], nocc[0], nvir[0]), dtype=types[float])
    .zeros 104 [0, 0, 0, 1],
    -- 1542: x7 += einsum("ia,jkab->jkib", x6, t2.aaaa)
    .add 104 (.ein [(99, [0, 1]), (21, [2, 3, 1, 4])] [2, 3, 0, 4]) 1 1,
    -- 1543: del x6
    .del 99,
    -- 1544: x8 = np.zeros((nocc[0], nocc[0], nocc[0], nvir[0]), dtype=types[float])
    .zeros 105 [0, 0, 0, 1],
    -- 1545: x8 += einsum("ijka->kjia", x7)
    .add 105 (.ein [(104, [0, 1, 2, 3])] [2, 1, 0, 3]) 1 1,
    -- 1546: del x7
    .del 104,
    -- 1547: x8 += einsum("ijak->ijka", v.aaaa.oovo) * -1
    .add 105 (.ein [(22, [0, 1, 2, 3])] [0, 1, 3, 2]) (-1) 1,
    -- 1548: x26 = np.zeros((nocc[0], nocc[0], nocc[0], nvir[0]), dtype=types[float])
    .zeros 106 [0, 0, 0, 1],
    -- 1549: x26 += einsum("ijka->kija", x8)
    .add 106 (.ein [(105, [0, 1, 2, 3])] [2, 0, 1, 3]) 1 1,
    -- 1550: x26 += einsum("ijka->jika", x8) * -1
    .add 106 (.ein [(105, [0, 1, 2, 3])] [1, 0, 2, 3]) (-1) 1,
    -- 1551: del x8
    .del 105,
    -- 1552: x9 = np.zeros((nocc[0], nocc[0], nocc[0], nvir[0]), dtype=types[float])
    .zeros 107 [0, 0, 0, 1],
    -- 1553: x9 += einsum("ijab,kacb->ijkc", t2.aaaa, v.aaaa.ovvv)
    .add 107 (.ein [(21, [0, 1, 2, 3]), (23, [4, 2, 5, 3])] [0, 1, 4, 5]) 1 1,
    -- 1554: x17 = np.zeros((nocc[0], nocc[0], nocc[0], nvir[0]), dtype=types[float])
    .zeros 108 [0, 0, 0, 1],
    -- 1555: x17 += einsum("ijka->ijka", x9) * -1
    .add 108 (.ein [(107, [0, 1, 2, 3])] [0, 1, 2, 3]) (-1) 1,
    -- 1556: del x9
    .del 107,
    -- 1557: x10 = np.zeros((nocc[0], nocc[0], nocc[0], nocc[0]), dtype=types[float])
    .zeros 109 [0, 0, 0, 0],
    -- 1558: x10 += einsum("ijab,kbla->ijlk", t2.aaaa, v.aaaa.ovov)
    .add 109 (.ein [(21, [0, 1, 2, 3]), (24, [4, 3, 5, 2])] [0, 1, 5, 4]) 1 1,
    -- 1559: x11 = np.zeros((nocc[0], nocc[0], nocc[0], nvir[0]), dtype=types[float])
    .zeros 110 [0, 0, 0, 1],
    -- 1560: x11 += einsum("ia,jkil->kjla", t1.aa, x10)
    .add 110 (.ein [(10, [0, 1]), (109, [2, 3, 0, 4])] [3, 2, 4, 1]) 1 1,
    -- 1561: x17 += einsum("ijka->ijka", x11)
    .add 108 (.ein [(110, [0, 1, 2, 3])] [0, 1, 2, 3]) 1 1,
    -- 1562: del x11
    .del 110,
    -- 1563: x356 = np.zeros((nocc[0], nocc[0], nvir[0], nvir[0]), dtype=types[float])
    .zeros 111 [0, 0, 1, 1],
    -- 1564: x356 += einsum("abij,ijkl->klab", l2.aaaa, x10)
    .add 111 (.ein [(25, [0, 1, 2, 3]), (109, [2, 3, 4, 5])] [4, 5, 0, 1]) 1 1,
    -- 1565: del x10
    .del 109,
    -- 1566: x360 = np.zeros((nocc[0], nocc[0], nvir[0], nvir[0]), dtype=types[float])
    .zeros 112 [0, 0, 1, 1],
    -- 1567: x360 += einsum("ijab->ijab", x356)
    .add 112 (.ein [(111, [0, 1, 2, 3])] [0, 1, 2, 3]) 1 1,
    -- 1568: del x356
    .del 111,
    -- 1569: x12 = np.zeros((nocc[0], nvir[0]), dtype=types[float])
    .zeros 113 [0, 1],
    -- 1570: x12 += einsum("ia,jbia->jb", t1.bb, v.aabb.ovov)
    .add 113 (.ein [(8, [0, 1]), (16, [2, 3, 0, 1])] [2, 3]) 1 1,
    -- 1571: x15 = np.zeros((nocc[0], nvir[0]), dtype=types[float])
    .zeros 114 [0, 1],
    -- 1572: x15 += einsum("ia->ia", x12)
    .add 114 (.ein [(113, [0, 1])] [0, 1]) 1 1,
    -- 1573: x31 += einsum("ia->ia", x12)
    .add 100 (.ein [(113, [0, 1])] [0, 1]) 1 1,
    -- 1574: x209 = np.zeros((nocc[0], nvir[0]), dtype=types[float])
    .zeros 115 [0, 1],
    -- 1575: x209 += einsum("ia->ia", x12)
    .add 115 (.ein [(113, [0, 1])] [0, 1]) 1 1,
    -- 1576: x332 = np.zeros((nocc[0], nvir[0]), dtype=types[float])
    .zeros 116 [0, 1],
    -- 1577: x332 += einsum("ia->ia", x12)
    .add 116 (.ein [(113, [0, 1])] [0, 1]) 1 1,
    -- 1578: x495 += einsum("ia->ia", x12)
    .add 102 (.ein [(113, [0, 1])] [0, 1]) 1 1,
    -- 1579: del x12
    .del 113,
    -- 1580: x13 = np.zeros((nocc[0], nocc[0], nvir[0], nvir[0]), dtype=types[float])
    .zeros 117 [0, 0, 1, 1],
    -- 1581: x13 += einsum("iajb->jiab", v.aaaa.ovov) * -1
    .add 117 (.ein [(24, [0, 1, 2, 3])] [2, 0, 1, 3]) (-1) 1,
    -- 1582: x13 += einsum("iajb->jiba", v.aaaa.ovov)
    .add 117 (.ein [(24, [0, 1, 2, 3])] [2, 0, 3, 1]) 1 1,
    -- 1583: x14 = np.zeros((nocc[0], nvir[0]), dtype=types[float])
    .zeros 118 [0, 1],
    -- 1584: x14 += einsum("ia,ijba->jb", t1.aa, x13)
    .add 118 (.ein [(10, [0, 1]), (117, [0, 2, 3, 1])] [2, 3]) 1 1,
    -- 1585: x15 += einsum("ia->ia", x14) * -1
    .add 114 (.ein [(118, [0, 1])] [0, 1]) (-1) 1,
    -- 1586: x16 = np.zeros((nocc[0], nocc[0], nocc[0], nvir[0]), dtype=types[float])
    .zeros 119 [0, 0, 0, 1],
    -- 1587: x16 += einsum("ia,jkab->jkib", x15, t2.aaaa)
    .add 119 (.ein [(114, [0, 1]), (21, [2, 3, 1, 4])] [2, 3, 0, 4]) 1 1,
    -- 1588: x17 += einsum("ijka->jika", x16)
    .add 108 (.ein [(119, [0, 1, 2, 3])] [1, 0, 2, 3]) 1 1,
    -- 1589: del x16
    .del 119,
    -- 1590: x26 += einsum("ijka->jkia", x17)
    .add 106 (.ein [(108, [0, 1, 2, 3])] [1, 2, 0, 3]) 1 1,
    -- 1591: x26 += einsum("ijka->ikja", x17) * -1
    .add 106 (.ein [(108, [0, 1, 2, 3])] [0, 2, 1, 3]) (-1) 1,
    -- 1592: del x17
    .del 108,
    -- 1593: x344 = np.zeros((nocc[0], nocc[0]), dtype=types[float])
    .zeros 120 [0, 0],
    -- 1594: x344 += einsum("ia,ja->ij", t1.aa, x15)
    .add 120 (.ein [(10, [0, 1]), (114, [2, 1])] [0, 2]) 1 1,
    -- 1595: x345 = np.zeros((nocc[0], nocc[0]), dtype=types[float])
    .zeros 121 [0, 0],
    -- 1596: x345 += einsum("ij->ij", x344)
    .add 121 (.ein [(120, [0, 1])] [0, 1]) 1 1,
    -- 1597: del x344
    .del 120,
    -- 1598: x517 = np.zeros((nvir[0], nvir[0]), dtype=types[float])
    .zeros 122 [1, 1],
    -- 1599: x517 += einsum("ia,ib->ab", t1.aa, x15) * -1
    .add 122 (.ein [(10, [0, 1]), (114, [0, 2])] [1, 2]) (-1) 1,
    -- 1600: x31 += einsum("ia->ia", x14) * -1
    .add 100 (.ein [(118, [0, 1])] [0, 1]) (-1) 1,
    -- 1601: x209 += einsum("ia->ia", x14) * -1
    .add 115 (.ein [(118, [0, 1])] [0, 1]) (-1) 1,
    -- 1602: del x14
    .del 118,
    -- 1603: x194 = np.zeros((nbos, nocc[0], nvir[0]), dtype=types[float])
    .zeros 123 [2, 0, 1],
    -- 1604: x194 += einsum("wia,ijba->wjb", u11.aa, x13)
    .add 123 (.ein [(26, [0, 1, 2]), (117, [1, 3, 4, 2])] [0, 3, 4]) 1 1,
    -- 1605: x195 = np.zeros((nbos, nocc[0], nvir[0]), dtype=types[float])
    .zeros 124 [2, 0, 1],
    -- 1606: x195 += einsum("wia->wia", x194) * -1
    .add 124 (.ein [(123, [0, 1, 2])] [0, 1, 2]) (-1) 1,
    -- 1607: del x194
    .del 123,
    -- 1608: x435 = np.zeros((nocc[0], nocc[1], nvir[0], nvir[1]), dtype=types[float])
    .zeros 125 [0, 4, 1, 5],
    -- 1609: x435 += einsum("ijab,ikca->kjcb", t2.abab, x13)
    .add 125 (.ein [(13, [0, 1, 2, 3]), (117, [0, 4, 5, 2])] [4, 1, 5, 3]) 1 1,
    -- 1610: x437 = np.zeros((nocc[0], nocc[1], nvir[0], nvir[1]), dtype=types[float])
    .zeros 126 [0, 4, 1, 5],
    -- 1611: x437 += einsum("ijab->ijab", x435) * -1
    .add 126 (.ein [(125, [0, 1, 2, 3])] [0, 1, 2, 3]) (-1) 1,
    -- 1612: del x435
    .del 125,
    -- 1613: x18 = np.zeros((nocc[0], nocc[0], nocc[0], nvir[0]), dtype=types[float])
    .zeros 127 [0, 0, 0, 1],
    -- 1614: x18 += einsum("ia,jbka->ijkb", t1.aa, v.aaaa.ovov)
    .add 127 (.ein [(10, [0, 1]), (24, [2, 3, 4, 1])] [0, 2, 4, 3]) 1 1,
    -- 1615: x19 = np.zeros((nocc[0], nocc[0], nocc[0], nvir[0]), dtype=types[float])
    .zeros 128 [0, 0, 0, 1],
    -- 1616: x19 += einsum("ijka->ikja", x18) * -1
    .add 128 (.ein [(127, [0, 1, 2, 3])] [0, 2, 1, 3]) (-1) 1,
    -- 1617: x19 += einsum("ijka->ijka", x18)
    .add 128 (.ein [(127, [0, 1, 2, 3])] [0, 1, 2, 3]) 1 1,
    -- 1618: x27 = np.zeros((nocc[0], nocc[0], nocc[0], nvir[0]), dtype=types[float])
    .zeros 129 [0, 0, 0, 1],
    -- 1619: x27 += einsum("ijka->jkia", x18)
    .add 129 (.ein [(127, [0, 1, 2, 3])] [1, 2, 0, 3]) 1 1,
    -- 1620: x27 += einsum("ijka->kjia", x18) * -1
    .add 129 (.ein [(127, [0, 1, 2, 3])] [2, 1, 0, 3]) (-1) 1,
    -- 1621: x46 = np.zeros((nocc[0], nocc[0], nocc[0], nocc[0]), dtype=types[float])
    .zeros 130 [0, 0, 0, 0],
    -- 1622: x46 += einsum("ia,jkla->ijkl", t1.aa, x18)
    .add 130 (.ein [(10, [0, 1]), (127, [2, 3, 4, 1])] [0, 2, 3, 4]) 1 1,
    -- 1623: x47 = np.zeros((nocc[0], nocc[0], nocc[0], nvir[0]), dtype=types[float])
    .zeros 131 [0, 0, 0, 1],
    -- 1624: x47 += einsum("ia,jkil->kjla", t1.aa, x46)
    .add 131 (.ein [(10, [0, 1]), (130, [2, 3, 0, 4])] [3, 2, 4, 1]) 1 1,
    -- 1625: x48 = np.zeros((nocc[0], nocc[0], nocc[0], nvir[0]), dtype=types[float])
    .zeros 132 [0, 0, 0, 1],
    -- 1626: x48 += einsum("ijka->ijka", x47)
    .add 132 (.ein [(131, [0, 1, 2, 3])] [0, 1, 2, 3]) 1 1,
    -- 1627: del x47
    .del 131,
    -- 1628: x357 = np.zeros((nocc[0], nocc[0], nvir[0], nvir[0]), dtype=types[float])
    .zeros 133 [0, 0, 1, 1],
    -- 1629: x357 += einsum("abij,jikl->klba", l2.aaaa, x46)
    .add 133 (.ein [(25, [0, 1, 2, 3]), (130, [3, 2, 4, 5])] [4, 5, 1, 0]) 1 1,
    -- 1630: del x46
    .del 130,
    -- 1631: x360 += einsum("ijab->ijab", x357)
    .add 112 (.ein [(133, [0, 1, 2, 3])] [0, 1, 2, 3]) 1 1,
    -- 1632: del x357
    .del 133,
    -- 1633: x83 = np.zeros((nocc[0], nocc[0], nocc[0], nvir[0]), dtype=types[float])
    .zeros 134 [0, 0, 0, 1],
    -- 1634: x83 += einsum("ijka->jkia", x18) * -1
    .add 134 (.ein [(127, [0, 1, 2, 3])] [1, 2, 0, 3]) (-1) 1,
    -- 1635: x83 += einsum("ijka->kjia", x18)
    .add 134 (.ein [(127, [0, 1, 2, 3])] [2, 1, 0, 3]) 1 1,
    -- 1636: x329 = np.zeros((nocc[0], nocc[0], nocc[0], nvir[0]), dtype=types[float])
    .zeros 135 [0, 0, 0, 1],
    -- 1637: x329 += einsum("ijka->ijka", x18)
    .add 135 (.ein [(127, [0, 1, 2, 3])] [0, 1, 2, 3]) 1 1,
    -- 1638: x341 = np.zeros((nocc[0], nocc[0], nocc[0], nvir[0]), dtype=types[float])
    .zeros 136 [0, 0, 0, 1],
    -- 1639: x341 += einsum("ijka->ikja", x18) * -1
    .add 136 (.ein [(127, [0, 1, 2, 3])] [0, 2, 1, 3]) (-1) 1,
    -- 1640: x341 += einsum("ijka->ijka", x18)
    .add 136 (.ein [(127, [0, 1, 2, 3])] [0, 1, 2, 3]) 1 1,
    -- 1641: x466 = np.zeros((nocc[0], nocc[0], nocc[0], nvir[0]), dtype=types[float])
    .zeros 137 [0, 0, 0, 1],
    -- 1642: x466 += einsum("ijka->ikja", x18)
    .add 137 (.ein [(127, [0, 1, 2, 3])] [0, 2, 1, 3]) 1 1,
    -- 1643: x466 += einsum("ijka->ijka", x18) * -1
    .add 137 (.ein [(127, [0, 1, 2, 3])] [0, 1, 2, 3]) (-1) 1,
    -- 1644: del x18
    .del 127,
    -- 1645: x19 += einsum("ijka->jkia", v.aaaa.ooov)
    .add 128 (.ein [(27, [0, 1, 2, 3])] [1, 2, 0, 3]) 1 1,
    -- 1646: x19 += einsum("ijka->jika", v.aaaa.ooov) * -1
    .add 128 (.ein [(27, [0, 1, 2, 3])] [1, 0, 2, 3]) (-1) 1,
    -- 1647: x20 = np.zeros((nocc[0], nocc[0], nvir[0], nvir[0]), dtype=types[float])
    .zeros 138 [0, 0, 1, 1],
    -- 1648: x20 += einsum("ijab->jiab", t2.aaaa)
    .add 138 (.ein [(21, [0, 1, 2, 3])] [1, 0, 2, 3]) 1 1,
    -- 1649: x20 += einsum("ijab->jiba", t2.aaaa) * -1
    .add 138 (.ein [(21, [0, 1, 2, 3])] [1, 0, 3, 2]) (-1) 1,
    -- 1650: x26 += einsum("ijka,klab->ijlb", x19, x20)
    .add 106 (.ein [(128, [0, 1, 2, 3]), (138, [2, 4, 3, 5])] [0, 1, 4, 5]) 1 1,
    -- 1651: x50 = np.zeros((nocc[0], nocc[0], nocc[0], nvir[0]), dtype=types[float])
    .zeros 139 [0, 0, 0, 1],
    -- 1652: x50 += einsum("ijka,klab->ijlb", x19, x20) * 0.9999999999999993
    .add 139 (.ein [(128, [0, 1, 2, 3]), (138, [2, 4, 3, 5])] [0, 1, 4, 5]) 1 1,
    -- 1653: del x19
    .del 128,
    -- 1654: x82 = np.zeros((nocc[0], nvir[0]), dtype=types[float])
    .zeros 140 [0, 1],
    -- 1655: x82 += einsum("iabc,ijac->jb", v.aaaa.ovvv, x20)
    .add 140 (.ein [(23, [0, 1, 2, 3]), (138, [0, 4, 1, 3])] [4, 2]) 1 1,
    -- 1656: x116 = np.zeros((nocc[0], nvir[0]), dtype=types[float])
    .zeros 141 [0, 1],
    -- 1657: x116 += einsum("ia->ia", x82) * -1
    .add 141 (.ein [(140, [0, 1])] [0, 1]) (-1) 1,
    -- 1658: del x82
    .del 140,
    -- 1659: x161 = np.zeros((nocc[0], nvir[0]), dtype=types[float])
    .zeros 142 [0, 1],
    -- 1660: x161 += einsum("ai,ijba->jb", l1.aa, x20)
    .add 142 (.ein [(17, [0, 1]), (138, [1, 2, 3, 0])] [2, 3]) 1 1,
    -- 1661: x165 = np.zeros((nocc[0], nvir[0]), dtype=types[float])
    .zeros 143 [0, 1],
    -- 1662: x165 += einsum("ia->ia", x161) * -1
    .add 143 (.ein [(142, [0, 1])] [0, 1]) (-1) 1,
    -- 1663: del x161
    .del 142,
    -- 1664: x169 = np.zeros((nvir[0], nvir[0]), dtype=types[float])
    .zeros 144 [1, 1],
    -- 1665: x169 += einsum("abij,ijac->bc", l2.aaaa, x20)
    .add 144 (.ein [(25, [0, 1, 2, 3]), (138, [2, 3, 0, 4])] [1, 4]) 1 1,
    -- 1666: x170 = np.zeros((nvir[0], nvir[0]), dtype=types[float])
    .zeros 145 [1, 1],
    -- 1667: x170 += einsum("ab->ab", x169) * -1
    .add 145 (.ein [(144, [0, 1])] [0, 1]) (-1) 1,
    -- 1668: x347 = np.zeros((nvir[0], nvir[0]), dtype=types[float])
    .zeros 146 [1, 1],
    -- 1669: x347 += einsum("ab->ab", x169) * -1
    .add 146 (.ein [(144, [0, 1])] [0, 1]) (-1) 1,
    -- 1670: x476 = np.zeros((nvir[0], nvir[0]), dtype=types[float])
    .zeros 147 [1, 1],
    -- 1671: x476 += einsum("ab->ab", x169) * -1
    .add 147 (.ein [(144, [0, 1])] [0, 1]) (-1) 1,
    -- 1672: del x169
    .del 144,
    -- 1673: x249 = np.zeros((nocc[0], nocc[1], nvir[0], nvir[1]), dtype=types[float])
    .zeros 148 [0, 4, 1, 5],
    -- 1674: x249 += einsum("abij,ikca->kjcb", l2.abab, x20) * -1
    .add 148 (.ein [(9, [0, 1, 2, 3]), (138, [2, 4, 5, 0])] [4, 3, 5, 1]) (-1) 1,
    -- 1675: x258 += einsum("ijka,ilba->ljkb", x0, x20) * -1
    .add 92 (.ein [(75, [0, 1, 2, 3]), (138, [0, 4, 5, 3])] [4, 1, 2, 5]) (-1) 1,
    -- 1676: x338 = np.zeros((nocc[0], nocc[0], nvir[0], nvir[0]), dtype=types[float])
    .zeros 149 [0, 0, 1, 1],
    -- 1677: x338 += einsum("ijab,ikbc->kjca", x13, x20)
    .add 149 (.ein [(117, [0, 1, 2, 3]), (138, [0, 4, 3, 5])] [4, 1, 5, 2]) 1 1,
    -- 1678: x339 = np.zeros((nocc[0], nocc[0], nvir[0], nvir[0]), dtype=types[float])
    .zeros 150 [0, 0, 1, 1],
    -- 1679: x339 += einsum("ijab->ijab", x338)
    .add 150 (.ein [(149, [0, 1, 2, 3])] [0, 1, 2, 3]) 1 1,
    -- 1680: del x338
    .del 149,
    -- 1681: x350 = np.zeros((nvir[0], nvir[0]), dtype=types[float])
    .zeros 151 [1, 1],
    -- 1682: x350 += einsum("iajb,ijac->cb", v.aaaa.ovov, x20)
    .add 151 (.ein [(24, [0, 1, 2, 3]), (138, [0, 2, 1, 4])] [4, 3]) 1 1,
    -- 1683: x351 = np.zeros((nvir[0], nvir[0]), dtype=types[float])
    .zeros 152 [1, 1],
    -- 1684: x351 += einsum("ab->ab", x350) * -1
    .add 152 (.ein [(151, [0, 1])] [0, 1]) (-1) 1,
    -- 1685: del x350
    .del 151,
    -- 1686: x468 = np.zeros((nvir[0], nvir[0]), dtype=types[float])
    .zeros 153 [1, 1],
    -- 1687: x468 += einsum("iajb,ijca->cb", v.aaaa.ovov, x20)
    .add 153 (.ein [(24, [0, 1, 2, 3]), (138, [0, 2, 4, 1])] [4, 3]) 1 1,
    -- 1688: x469 = np.zeros((nvir[0], nvir[0]), dtype=types[float])
    .zeros 154 [1, 1],
    -- 1689: x469 += einsum("ab->ab", x468) * -1
    .add 154 (.ein [(153, [0, 1])] [0, 1]) (-1) 1,
    -- 1690: x517 += einsum("ab->ab", x468) * -1
    .add 122 (.ein [(153, [0, 1])] [0, 1]) (-1) 1,
    -- 1691: del x468
    .del 153,
    -- 1692: x21 = np.zeros((nocc[0], nocc[0], nocc[1], nvir[1]), dtype=types[float])
    .zeros 155 [0, 0, 4, 5],
    -- 1693: x21 += einsum("ia,jakb->ijkb", t1.aa, v.aabb.ovov)
    .add 155 (.ein [(10, [0, 1]), (16, [2, 1, 3, 4])] [0, 2, 3, 4]) 1 1,
    -- 1694: x22 = np.zeros((nocc[0], nocc[0], nocc[1], nvir[1]), dtype=types[float])
    .zeros 156 [0, 0, 4, 5],
    -- 1695: x22 += einsum("ijka->jika", x21)
    .add 156 (.ein [(155, [0, 1, 2, 3])] [1, 0, 2, 3]) 1 1,
    -- 1696: x492 = np.zeros((nocc[0], nocc[0], nocc[1], nvir[1]), dtype=types[float])
    .zeros 157 [0, 0, 4, 5],
    -- 1697: x492 += einsum("ijka->jika", x21)
    .add 157 (.ein [(155, [0, 1, 2, 3])] [1, 0, 2, 3]) 1 1,
    -- 1698: x22 += einsum("ijka->ijka", v.aabb.ooov)
    .add 156 (.ein [(12, [0, 1, 2, 3])] [0, 1, 2, 3]) 1 1,
    -- 1699: x26 += einsum("ijab,kljb->lkia", t2.abab, x22)
    .add 106 (.ein [(13, [0, 1, 2, 3]), (156, [4, 5, 1, 3])] [5, 4, 0, 2]) 1 1,
    -- 1700: x50 += einsum("ijab,kljb->lkia", t2.abab, x22) * 0.9999999999999993
    .add 139 (.ein [(13, [0, 1, 2, 3]), (156, [4, 5, 1, 3])] [5, 4, 0, 2]) 1 1,
    -- 1701: x85 = np.zeros((nocc[0], nvir[0]), dtype=types[float])
    .zeros 158 [0, 1],
    -- 1702: x85 += einsum("ijab,ikjb->ka", t2.abab, x22)
    .add 158 (.ein [(13, [0, 1, 2, 3]), (156, [0, 4, 1, 3])] [4, 2]) 1 1,
    -- 1703: x116 += einsum("ia->ia", x85) * -1
    .add 141 (.ein [(158, [0, 1])] [0, 1]) (-1) 1,
    -- 1704: del x85
    .del 158,
    -- 1705: x228 = np.zeros((nocc[0], nocc[1], nocc[1], nvir[0]), dtype=types[float])
    .zeros 159 [0, 4, 4, 1],
    -- 1706: x228 += einsum("ijab,iklb->klja", t2.abab, x22) * -1
    .add 159 (.ein [(13, [0, 1, 2, 3]), (156, [0, 4, 5, 3])] [4, 5, 1, 2]) (-1) 1,
    -- 1707: x465 = np.zeros((nocc[0], nocc[1], nvir[0], nvir[1]), dtype=types[float])
    .zeros 160 [0, 4, 1, 5],
    -- 1708: x465 += einsum("ijka,likb->ljab", x0, x22)
    .add 160 (.ein [(75, [0, 1, 2, 3]), (156, [4, 0, 2, 5])] [4, 1, 3, 5]) 1 1,
    -- 1709: l2new_baba += einsum("ijab->baji", x465)
    .add 89 (.ein [(160, [0, 1, 2, 3])] [3, 2, 1, 0]) 1 1,
    -- 1710: l2new_abab += einsum("ijab->abij", x465)
    .add 90 (.ein [(160, [0, 1, 2, 3])] [2, 3, 0, 1]) 1 1,
    -- 1711: del x465
    .del 160,
    -- 1712: x23 = np.zeros((nocc[0], nocc[0], nvir[0], nvir[0]), dtype=types[float])
    .zeros 161 [0, 0, 1, 1],
    -- 1713: x23 += einsum("iabj->ijba", v.aaaa.ovvo)
    .add 161 (.ein [(28, [0, 1, 2, 3])] [0, 3, 2, 1]) 1 1,
    -- 1714: x23 += einsum("ijab->ijab", v.aaaa.oovv) * -1
    .add 161 (.ein [(29, [0, 1, 2, 3])] [0, 1, 2, 3]) (-1) 1,
    -- 1715: x26 += einsum("ia,jkba->ijkb", t1.aa, x23)
    .add 106 (.ein [(10, [0, 1]), (161, [2, 3, 4, 1])] [0, 2, 3, 4]) 1 1,
    -- 1716: x50 += einsum("ia,jkba->ijkb", t1.aa, x23) * 0.9999999999999993
    .add 139 (.ein [(10, [0, 1]), (161, [2, 3, 4, 1])] [0, 2, 3, 4]) 1 1,
    -- 1717: x93 = np.zeros((nocc[0], nvir[0]), dtype=types[float])
    .zeros 162 [0, 1],
    -- 1718: x93 += einsum("ia,ijba->jb", t1.aa, x23)
    .add 162 (.ein [(10, [0, 1]), (161, [0, 2, 3, 1])] [2, 3]) 1 1,
    -- 1719: x116 += einsum("ia->ia", x93)
    .add 141 (.ein [(162, [0, 1])] [0, 1]) 1 1,
    -- 1720: del x93
    .del 162,
    -- 1721: x24 = np.zeros((nocc[0], nocc[0], nocc[0], nocc[0]), dtype=types[float])
    .zeros 163 [0, 0, 0, 0],
    -- 1722: x24 += einsum("ia,jkla->ijlk", t1.aa, v.aaaa.ooov)
    .add 163 (.ein [(10, [0, 1]), (27, [2, 3, 4, 1])] [0, 2, 4, 3]) 1 1,
    -- 1723: x25 = np.zeros((nocc[0], nocc[0], nocc[0], nocc[0]), dtype=types[float])
    .zeros 164 [0, 0, 0, 0],
    -- 1724: x25 += einsum("ijkl->jkil", x24)
    .add 164 (.ein [(163, [0, 1, 2, 3])] [1, 2, 0, 3]) 1 1,
    -- 1725: x25 += einsum("ijkl->kjil", x24) * -1
    .add 164 (.ein [(163, [0, 1, 2, 3])] [2, 1, 0, 3]) (-1) 1,
    -- 1726: x49 = np.zeros((nocc[0], nocc[0], nocc[0], nocc[0]), dtype=types[float])
    .zeros 165 [0, 0, 0, 0],
    -- 1727: x49 += einsum("ijkl->ikjl", x24)
    .add 165 (.ein [(163, [0, 1, 2, 3])] [0, 2, 1, 3]) 1 1,
    -- 1728: x49 += einsum("ijkl->ijkl", x24) * -1
    .add 165 (.ein [(163, [0, 1, 2, 3])] [0, 1, 2, 3]) (-1) 1,
    -- 1729: x50 += einsum("ia,jkil->jkla", t1.aa, x49) * -0.9999999999999993
    .add 139 (.ein [(10, [0, 1]), (165, [2, 3, 0, 4])] [2, 3, 4, 1]) (-1) 1,
    -- 1730: del x49
    .del 165,
    -- 1731: x293 = np.zeros((nocc[0], nocc[0], nvir[0], nvir[0]), dtype=types[float])
    .zeros 166 [0, 0, 1, 1],
    -- 1732: x293 += einsum("abij,jkli->klba", l2.aaaa, x24)
    .add 166 (.ein [(25, [0, 1, 2, 3]), (163, [3, 4, 5, 2])] [4, 5, 1, 0]) 1 1,
    -- 1733: del x24
    .del 163,
    -- 1734: x333 -= einsum("ijab->ijab", x293)
    .add 87 (.ein [(166, [0, 1, 2, 3])] [0, 1, 2, 3]) (-1) 1,
    -- 1735: del x293
    .del 166,
    -- 1736: x25 += einsum("ijkl->kijl", v.aaaa.oooo)
    .add 164 (.ein [(30, [0, 1, 2, 3])] [2, 0, 1, 3]) 1 1,
    -- 1737: x25 += einsum("ijkl->kilj", v.aaaa.oooo) * -1
    .add 164 (.ein [(30, [0, 1, 2, 3])] [2, 0, 3, 1]) (-1) 1,
    -- 1738: x26 += einsum("ia,ijkl->kjla", t1.aa, x25) * -1
    .add 106 (.ein [(10, [0, 1]), (164, [0, 2, 3, 4])] [3, 2, 4, 1]) (-1) 1,
    -- 1739: del x25
    .del 164,
    -- 1740: l1new_aa += einsum("abij,ikjb->ak", l2.aaaa, x26) * -1
    .add 79 (.ein [(25, [0, 1, 2, 3]), (106, [2, 4, 3, 1])] [0, 4]) (-1) 1,
    -- 1741: del x26
    .del 106,
    -- 1742: x27 += einsum("ijka->ikja", v.aaaa.ooov) * -1
    .add 129 (.ein [(27, [0, 1, 2, 3])] [0, 2, 1, 3]) (-1) 1,
    -- 1743: x27 += einsum("ijka->kija", v.aaaa.ooov)
    .add 129 (.ein [(27, [0, 1, 2, 3])] [2, 0, 1, 3]) 1 1,
    -- 1744: x39 = np.zeros((nocc[0], nocc[0], nocc[1], nvir[1]), dtype=types[float])
    .zeros 167 [0, 0, 4, 5],
    -- 1745: x39 += einsum("ijab,kila->kljb", t2.abab, x27) * -1
    .add 167 (.ein [(13, [0, 1, 2, 3]), (129, [4, 0, 5, 2])] [4, 5, 1, 3]) (-1) 1,
    -- 1746: del x27
    .del 129,
    -- 1747: x28 = np.zeros((nocc[1], nocc[1], nvir[1], nvir[1]), dtype=types[float])
    .zeros 168 [4, 4, 5, 5],
    -- 1748: x28 += einsum("ijab->jiab", t2.bbbb)
    .add 168 (.ein [(31, [0, 1, 2, 3])] [1, 0, 2, 3]) 1 1,
    -- 1749: x28 += einsum("ijab->jiba", t2.bbbb) * -1
    .add 168 (.ein [(31, [0, 1, 2, 3])] [1, 0, 3, 2]) (-1) 1,
    -- 1750: x39 += einsum("ijka,klab->ijlb", x22, x28) * -1
    .add 167 (.ein [(156, [0, 1, 2, 3]), (168, [2, 4, 3, 5])] [0, 1, 4, 5]) (-1) 1,
    -- 1751: x124 = np.zeros((nocc[1], nvir[1]), dtype=types[float])
    .zeros 169 [4, 5],
    -- 1752: x124 += einsum("iabc,ijac->jb", v.bbbb.ovvv, x28)
    .add 169 (.ein [(32, [0, 1, 2, 3]), (168, [0, 4, 1, 3])] [4, 2]) 1 1,
    -- 1753: x154 = np.zeros((nocc[1], nvir[1]), dtype=types[float])
    .zeros 170 [4, 5],
    -- 1754: x154 += einsum("ia->ia", x124) * -1
    .add 170 (.ein [(169, [0, 1])] [0, 1]) (-1) 1,
    -- 1755: del x124
    .del 169,
    -- 1756: x183 = np.zeros((nocc[1], nocc[1]), dtype=types[float])
    .zeros 171 [4, 4],
    -- 1757: x183 += einsum("abij,ikab->jk", l2.bbbb, x28)
    .add 171 (.ein [(33, [0, 1, 2, 3]), (168, [2, 4, 0, 1])] [3, 4]) 1 1,
    -- 1758: x184 = np.zeros((nocc[1], nocc[1]), dtype=types[float])
    .zeros 172 [4, 4],
    -- 1759: x184 += einsum("ij->ij", x183) * -1
    .add 172 (.ein [(171, [0, 1])] [0, 1]) (-1) 1,
    -- 1760: x251 = np.zeros((nocc[1], nocc[1]), dtype=types[float])
    .zeros 173 [4, 4],
    -- 1761: x251 += einsum("ij->ij", x183) * -1
    .add 173 (.ein [(171, [0, 1])] [0, 1]) (-1) 1,
    -- 1762: x285 = np.zeros((nocc[1], nocc[1]), dtype=types[float])
    .zeros 174 [4, 4],
    -- 1763: x285 += einsum("ij->ij", x183) * -1
    .add 174 (.ein [(171, [0, 1])] [0, 1]) (-1) 1,
    -- 1764: del x183
    .del 171,
    -- 1765: x436 = np.zeros((nocc[0], nocc[1], nvir[0], nvir[1]), dtype=types[float])
    .zeros 175 [0, 4, 1, 5],
    -- 1766: x436 += einsum("iajb,jkbc->ikac", v.aabb.ovov, x28)
    .add 175 (.ein [(16, [0, 1, 2, 3]), (168, [2, 4, 3, 5])] [0, 4, 1, 5]) 1 1,
    -- 1767: x437 += einsum("ijab->ijab", x436) * -1
    .add 126 (.ein [(175, [0, 1, 2, 3])] [0, 1, 2, 3]) (-1) 1,
    -- 1768: del x436
    .del 175,
    -- 1769: x509 = np.zeros((nbos, nocc[1], nvir[1]), dtype=types[float])
    .zeros 176 [2, 4, 5],
    -- 1770: x509 += einsum("wia,ijab->wjb", g.bb.bov, x28)
    .add 176 (.ein [(6, [0, 1, 2]), (168, [1, 3, 2, 4])] [0, 3, 4]) 1 1,
    -- 1771: x511 = np.zeros((nbos, nocc[1], nvir[1]), dtype=types[float])
    .zeros 177 [2, 4, 5],
    -- 1772: x511 += einsum("wia->wia", x509) * -1
    .add 177 (.ein [(176, [0, 1, 2])] [0, 1, 2]) (-1) 1,
    -- 1773: del x509
    .del 176,
    -- 1774: x514 = np.zeros((nbos, nocc[1], nvir[1]), dtype=types[float])
    .zeros 178 [2, 4, 5],
    -- 1775: x514 += einsum("wai,ijab->wjb", lu11.bb, x28)
    .add 178 (.ein [(34, [0, 1, 2]), (168, [2, 3, 1, 4])] [0, 3, 4]) 1 1,
    -- 1776: x515 = np.zeros((nbos, nocc[1], nvir[1]), dtype=types[float])
    .zeros 179 [2, 4, 5],
    -- 1777: x515 += einsum("wia->wia", x514) * -1
    .add 179 (.ein [(178, [0, 1, 2])] [0, 1, 2]) (-1) 1,
    -- 1778: del x514
    .del 178,
    -- 1779: x29 = np.zeros((nocc[0], nocc[1], nocc[1], nvir[0]), dtype=types[float])
    .zeros 180 [0, 4, 4, 1],
    -- 1780: x29 += einsum("ia,jbka->jikb", t1.bb, v.aabb.ovov)
    .add 180 (.ein [(8, [0, 1]), (16, [2, 3, 4, 1])] [2, 0, 4, 3]) 1 1,
    -- 1781: x30 = np.zeros((nocc[0], nocc[1], nocc[1], nvir[0]), dtype=types[float])
    .zeros 181 [0, 4, 4, 1],
    -- 1782: x30 += einsum("ijka->ikja", x29)
    .add 181 (.ein [(180, [0, 1, 2, 3])] [0, 2, 1, 3]) 1 1,
    -- 1783: x34 = np.zeros((nocc[0], nocc[1], nocc[1], nvir[0]), dtype=types[float])
    .zeros 182 [0, 4, 4, 1],
    -- 1784: x34 += einsum("ijka->ikja", x29)
    .add 182 (.ein [(180, [0, 1, 2, 3])] [0, 2, 1, 3]) 1 1,
    -- 1785: x296 = np.zeros((nocc[0], nocc[0], nvir[0], nvir[0]), dtype=types[float])
    .zeros 183 [0, 0, 1, 1],
    -- 1786: x296 += einsum("ijka,ljkb->ilab", x0, x29)
    .add 183 (.ein [(75, [0, 1, 2, 3]), (180, [4, 1, 2, 5])] [0, 4, 3, 5]) 1 1,
    -- 1787: x333 -= einsum("ijab->ijab", x296)
    .add 87 (.ein [(183, [0, 1, 2, 3])] [0, 1, 2, 3]) (-1) 1,
    -- 1788: del x296
    .del 183,
    -- 1789: x490 = np.zeros((nocc[0], nocc[1], nocc[1], nvir[0]), dtype=types[float])
    .zeros 184 [0, 4, 4, 1],
    -- 1790: x490 += einsum("ijka->ikja", x29)
    .add 184 (.ein [(180, [0, 1, 2, 3])] [0, 2, 1, 3]) 1 1,
    -- 1791: del x29
    .del 180,
    -- 1792: x30 += einsum("iajk->ijka", v.aabb.ovoo)
    .add 181 (.ein [(11, [0, 1, 2, 3])] [0, 2, 3, 1]) 1 1,
    -- 1793: x39 += einsum("ijab,kjla->kilb", t2.abab, x30) * -1
    .add 167 (.ein [(13, [0, 1, 2, 3]), (181, [4, 1, 5, 2])] [4, 0, 5, 3]) (-1) 1,
    -- 1794: x128 = np.zeros((nocc[1], nvir[1]), dtype=types[float])
    .zeros 185 [4, 5],
    -- 1795: x128 += einsum("ijab,ijka->kb", t2.abab, x30)
    .add 185 (.ein [(13, [0, 1, 2, 3]), (181, [0, 1, 4, 2])] [4, 3]) 1 1,
    -- 1796: x154 += einsum("ia->ia", x128) * -1
    .add 170 (.ein [(185, [0, 1])] [0, 1]) (-1) 1,
    -- 1797: del x128
    .del 185,
    -- 1798: x223 = np.zeros((nocc[1], nocc[1], nocc[1], nvir[1]), dtype=types[float])
    .zeros 186 [4, 4, 4, 5],
    -- 1799: x223 += einsum("ijab,ikla->lkjb", t2.abab, x30)
    .add 186 (.ein [(13, [0, 1, 2, 3]), (181, [0, 4, 5, 2])] [5, 4, 1, 3]) 1 1,
    -- 1800: x458 = np.zeros((nocc[0], nocc[0], nocc[1], nocc[1]), dtype=types[float])
    .zeros 187 [0, 0, 4, 4],
    -- 1801: x458 += einsum("ia,jkla->ijkl", t1.aa, x30)
    .add 187 (.ein [(10, [0, 1]), (181, [2, 3, 4, 1])] [0, 2, 3, 4]) 1 1,
    -- 1802: x459 = np.zeros((nocc[0], nocc[0], nocc[1], nocc[1]), dtype=types[float])
    .zeros 188 [0, 0, 4, 4],
    -- 1803: x459 += einsum("ijkl->jikl", x458)
    .add 188 (.ein [(187, [0, 1, 2, 3])] [1, 0, 2, 3]) 1 1,
    -- 1804: del x458
    .del 187,
    -- 1805: x31 += einsum("ia->ia", f.aa.ov)
    .add 100 (.ein [(20, [0, 1])] [0, 1]) 1 1,
    -- 1806: x39 += einsum("ia,jkab->ijkb", x31, t2.abab)
    .add 167 (.ein [(100, [0, 1]), (13, [2, 3, 1, 4])] [0, 2, 3, 4]) 1 1,
    -- 1807: x104 = np.zeros((nocc[0], nocc[0]), dtype=types[float])
    .zeros 189 [0, 0],
    -- 1808: x104 += einsum("ia,ja->ij", t1.aa, x31)
    .add 189 (.ein [(10, [0, 1]), (100, [2, 1])] [0, 2]) 1 1,
    -- 1809: x105 = np.zeros((nocc[0], nocc[0]), dtype=types[float])
    .zeros 190 [0, 0],
    -- 1810: x105 += einsum("ij->ji", x104)
    .add 190 (.ein [(189, [0, 1])] [1, 0]) 1 1,
    -- 1811: del x104
    .del 189,
    -- 1812: x130 = np.zeros((nocc[1], nvir[1]), dtype=types[float])
    .zeros 191 [4, 5],
    -- 1813: x130 += einsum("ia,ijab->jb", x31, t2.abab)
    .add 191 (.ein [(100, [0, 1]), (13, [0, 2, 1, 3])] [2, 3]) 1 1,
    -- 1814: x154 += einsum("ia->ia", x130)
    .add 170 (.ein [(191, [0, 1])] [0, 1]) 1 1,
    -- 1815: del x130
    .del 191,
    -- 1816: x196 = np.zeros((nbos, nocc[0], nocc[0]), dtype=types[float])
    .zeros 192 [2, 0, 0],
    -- 1817: x196 += einsum("ia,wja->wij", x31, u11.aa)
    .add 192 (.ein [(100, [0, 1]), (26, [2, 3, 1])] [2, 0, 3]) 1 1,
    -- 1818: x213 = np.zeros((nbos), dtype=types[float])
    .zeros 193 [2],
    -- 1819: x213 += einsum("ia,wia->w", x31, u11.aa)
    .add 193 (.ein [(100, [0, 1]), (26, [2, 0, 1])] [2]) 1 1,
    -- 1820: x215 = np.zeros((nbos), dtype=types[float])
    .zeros 194 [2],
    -- 1821: x215 += einsum("w->w", x213)
    .add 194 (.ein [(193, [0])] [0]) 1 1,
    -- 1822: del x213
    .del 193,
    -- 1823: lu11new_aa = np.zeros((nbos, nvir[0], nocc[0]), dtype=types[float])
    .zeros 195 [2, 1, 0],
    -- 1824: lu11new_aa += einsum("w,ia->wai", ls1, x31) * 2
    .add 195 (.ein [(35, [0]), (100, [1, 2])] [0, 2, 1]) 2 1,
    -- 1825: x32 = np.zeros((nocc[0], nocc[0], nocc[1], nocc[1]), dtype=types[float])
    .zeros 196 [0, 0, 4, 4],
    -- 1826: x32 += einsum("ia,jkla->jkil", t1.bb, v.aabb.ooov)
    .add 196 (.ein [(8, [0, 1]), (12, [2, 3, 4, 1])] [2, 3, 0, 4]) 1 1,
    -- 1827: x36 = np.zeros((nocc[0], nocc[0], nocc[1], nocc[1]), dtype=types[float])
    .zeros 197 [0, 0, 4, 4],
    -- 1828: x36 += einsum("ijkl->ijlk", x32)
    .add 197 (.ein [(196, [0, 1, 2, 3])] [0, 1, 3, 2]) 1 1,
    -- 1829: x459 += einsum("ijkl->ijlk", x32)
    .add 188 (.ein [(196, [0, 1, 2, 3])] [0, 1, 3, 2]) 1 1,
    -- 1830: del x32
    .del 196,
    -- 1831: x33 = np.zeros((nocc[0], nocc[0], nocc[1], nocc[1]), dtype=types[float])
    .zeros 198 [0, 0, 4, 4],
    -- 1832: x33 += einsum("ijab,kalb->ikjl", t2.abab, v.aabb.ovov)
    .add 198 (.ein [(13, [0, 1, 2, 3]), (16, [4, 2, 5, 3])] [0, 4, 1, 5]) 1 1,
    -- 1833: x36 += einsum("ijkl->jilk", x33)
    .add 197 (.ein [(198, [0, 1, 2, 3])] [1, 0, 3, 2]) 1 1,
    -- 1834: x459 += einsum("ijkl->jilk", x33)
    .add 188 (.ein [(198, [0, 1, 2, 3])] [1, 0, 3, 2]) 1 1,
    -- 1835: del x33
    .del 198,
    -- 1836: x34 += einsum("iajk->ijka", v.aabb.ovoo)
    .add 182 (.ein [(11, [0, 1, 2, 3])] [0, 2, 3, 1]) 1 1,
    -- 1837: x35 = np.zeros((nocc[0], nocc[0], nocc[1], nocc[1]), dtype=types[float])
    .zeros 199 [0, 0, 4, 4],
    -- 1838: x35 += einsum("ia,jkla->ijkl", t1.aa, x34)
    .add 199 (.ein [(10, [0, 1]), (182, [2, 3, 4, 1])] [0, 2, 3, 4]) 1 1,
    -- 1839: del x34
    .del 182,
    -- 1840: x36 += einsum("ijkl->jikl", x35)
    .add 197 (.ein [(199, [0, 1, 2, 3])] [1, 0, 2, 3]) 1 1,
    -- 1841: del x35
    .del 199,
    -- 1842: x36 += einsum("ijkl->ijkl", v.aabb.oooo)
    .add 197 (.ein [(36, [0, 1, 2, 3])] [0, 1, 2, 3]) 1 1,
    -- 1843: x39 += einsum("ia,jkil->jkla", t1.bb, x36) * -1
    .add 167 (.ein [(8, [0, 1]), (197, [2, 3, 0, 4])] [2, 3, 4, 1]) (-1) 1,
    -- 1844: x228 += einsum("ia,ijkl->jkla", t1.aa, x36) * -1
    .add 159 (.ein [(10, [0, 1]), (197, [0, 2, 3, 4])] [2, 3, 4, 1]) (-1) 1,
    -- 1845: del x36
    .del 197,
    -- 1846: x37 = np.zeros((nocc[0], nocc[1], nvir[0], nvir[1]), dtype=types[float])
    .zeros 200 [0, 4, 1, 5],
    -- 1847: x37 += einsum("ia,jbca->jibc", t1.bb, v.aabb.ovvv)
    .add 200 (.ein [(8, [0, 1]), (19, [2, 3, 4, 1])] [2, 0, 3, 4]) 1 1,
    -- 1848: x38 = np.zeros((nocc[0], nocc[1], nvir[0], nvir[1]), dtype=types[float])
    .zeros 201 [0, 4, 1, 5],
    -- 1849: x38 += einsum("ijab->ijab", x37)
    .add 201 (.ein [(200, [0, 1, 2, 3])] [0, 1, 2, 3]) 1 1,
    -- 1850: x304 = np.zeros((nocc[0], nocc[1], nvir[0], nvir[1]), dtype=types[float])
    .zeros 202 [0, 4, 1, 5],
    -- 1851: x304 += einsum("ijab->ijab", x37)
    .add 202 (.ein [(200, [0, 1, 2, 3])] [0, 1, 2, 3]) 1 1,
    -- 1852: x437 += einsum("ijab->ijab", x37)
    .add 126 (.ein [(200, [0, 1, 2, 3])] [0, 1, 2, 3]) 1 1,
    -- 1853: del x37
    .del 200,
    -- 1854: x38 += einsum("iabj->ijab", v.aabb.ovvo)
    .add 201 (.ein [(37, [0, 1, 2, 3])] [0, 3, 1, 2]) 1 1,
    -- 1855: x39 += einsum("ia,jkab->jikb", t1.aa, x38)
    .add 167 (.ein [(10, [0, 1]), (201, [2, 3, 1, 4])] [2, 0, 3, 4]) 1 1,
    -- 1856: x39 += einsum("ijak->ijka", v.aabb.oovo)
    .add 167 (.ein [(38, [0, 1, 2, 3])] [0, 1, 3, 2]) 1 1,
    -- 1857: x39 += einsum("ia,jkba->jkib", t1.bb, v.aabb.oovv)
    .add 167 (.ein [(8, [0, 1]), (39, [2, 3, 4, 1])] [2, 3, 0, 4]) 1 1,
    -- 1858: x39 += einsum("ijab,kacb->kijc", t2.abab, v.aabb.ovvv)
    .add 167 (.ein [(13, [0, 1, 2, 3]), (19, [4, 2, 5, 3])] [4, 0, 1, 5]) 1 1,
    -- 1859: l1new_aa += einsum("abij,kijb->ak", l2.abab, x39) * -1
    .add 79 (.ein [(9, [0, 1, 2, 3]), (167, [4, 2, 3, 1])] [0, 4]) (-1) 1,
    -- 1860: del x39
    .del 167,
    -- 1861: x40 = np.zeros((nocc[0], nocc[0], nvir[0], nvir[0]), dtype=types[float])
    .zeros 203 [0, 0, 1, 1],
    -- 1862: x40 += einsum("abij,kjcb->ikac", l2.abab, t2.abab)
    .add 203 (.ein [(9, [0, 1, 2, 3]), (13, [4, 3, 5, 1])] [2, 4, 0, 5]) 1 1,
    -- 1863: x42 = np.zeros((nocc[0], nocc[0], nvir[0], nvir[0]), dtype=types[float])
    .zeros 204 [0, 0, 1, 1],
    -- 1864: x42 += einsum("ijab->ijab", x40)
    .add 204 (.ein [(203, [0, 1, 2, 3])] [0, 1, 2, 3]) 1 1,
    -- 1865: x343 = np.zeros((nocc[0], nocc[0], nvir[0], nvir[0]), dtype=types[float])
    .zeros 205 [0, 0, 1, 1],
    -- 1866: x343 += einsum("ijab,kicb->kjca", x13, x40)
    .add 205 (.ein [(117, [0, 1, 2, 3]), (203, [4, 0, 5, 3])] [4, 1, 5, 2]) 1 1,
    -- 1867: del x40
    .del 203,
    -- 1868: x355 = np.zeros((nocc[0], nocc[0], nvir[0], nvir[0]), dtype=types[float])
    .zeros 206 [0, 0, 1, 1],
    -- 1869: x355 += einsum("ijab->ijab", x343)
    .add 206 (.ein [(205, [0, 1, 2, 3])] [0, 1, 2, 3]) 1 1,
    -- 1870: del x343
    .del 205,
    -- 1871: x41 = np.zeros((nocc[0], nocc[0], nvir[0], nvir[0]), dtype=types[float])
    .zeros 207 [0, 0, 1, 1],
    -- 1872: x41 += einsum("abij->jiab", l2.aaaa)
    .add 207 (.ein [(25, [0, 1, 2, 3])] [3, 2, 0, 1]) 1 1,
    -- 1873: x41 += einsum("abij->jiba", l2.aaaa) * -1
    .add 207 (.ein [(25, [0, 1, 2, 3])] [3, 2, 1, 0]) (-1) 1,
    -- 1874: x42 += einsum("ijab,ikcb->kjca", x20, x41)
    .add 204 (.ein [(138, [0, 1, 2, 3]), (207, [0, 4, 5, 3])] [4, 1, 5, 2]) 1 1,
    -- 1875: x52 += einsum("ijab,ikca->kjcb", t2.abab, x41) * -1
    .add 81 (.ein [(13, [0, 1, 2, 3]), (207, [0, 4, 5, 2])] [4, 1, 5, 3]) (-1) 1,
    -- 1876: x43 = np.zeros((nocc[0], nvir[0], nvir[0], nvir[0]), dtype=types[float])
    .zeros 208 [0, 1, 1, 1],
    -- 1877: x43 += einsum("iabc->ibac", v.aaaa.ovvv)
    .add 208 (.ein [(23, [0, 1, 2, 3])] [0, 2, 1, 3]) 1 1,
    -- 1878: x43 += einsum("iabc->ibca", v.aaaa.ovvv) * -1
    .add 208 (.ein [(23, [0, 1, 2, 3])] [0, 2, 3, 1]) (-1) 1,
    -- 1879: x109 = np.zeros((nvir[0], nvir[0]), dtype=types[float])
    .zeros 209 [1, 1],
    -- 1880: x109 += einsum("ia,ibca->bc", t1.aa, x43)
    .add 209 (.ein [(10, [0, 1]), (208, [0, 2, 3, 1])] [2, 3]) 1 1,
    -- 1881: x110 = np.zeros((nvir[0], nvir[0]), dtype=types[float])
    .zeros 210 [1, 1],
    -- 1882: x110 += einsum("ab->ab", x109) * -1
    .add 210 (.ein [(209, [0, 1])] [0, 1]) (-1) 1,
    -- 1883: x469 += einsum("ab->ab", x109) * -1
    .add 154 (.ein [(209, [0, 1])] [0, 1]) (-1) 1,
    -- 1884: x517 += einsum("ab->ab", x109) * -1
    .add 122 (.ein [(209, [0, 1])] [0, 1]) (-1) 1,
    -- 1885: del x109
    .del 209,
    -- 1886: x448 = np.zeros((nocc[0], nocc[0], nvir[0], nvir[0]), dtype=types[float])
    .zeros 211 [0, 0, 1, 1],
    -- 1887: x448 += einsum("ia,jbac->ijbc", t1.aa, x43)
    .add 211 (.ein [(10, [0, 1]), (208, [2, 3, 1, 4])] [0, 2, 3, 4]) 1 1,
    -- 1888: x449 = np.zeros((nocc[0], nocc[0], nvir[0], nvir[0]), dtype=types[float])
    .zeros 212 [0, 0, 1, 1],
    -- 1889: x449 += einsum("ijab->jiab", x448) * -1
    .add 212 (.ein [(211, [0, 1, 2, 3])] [1, 0, 2, 3]) (-1) 1,
    -- 1890: del x448
    .del 211,
    -- 1891: l1new_aa += einsum("ijab,jacb->ci", x42, x43) * -1
    .add 79 (.ein [(204, [0, 1, 2, 3]), (208, [1, 2, 4, 3])] [4, 0]) (-1) 1,
    -- 1892: del x42
    .del 204,
    -- 1893: x44 = np.zeros((nocc[0], nocc[0], nvir[0], nvir[0]), dtype=types[float])
    .zeros 213 [0, 0, 1, 1],
    -- 1894: x44 += einsum("ia,jbca->ijcb", t1.aa, v.aaaa.ovvv)
    .add 213 (.ein [(10, [0, 1]), (23, [2, 3, 4, 1])] [0, 2, 4, 3]) 1 1,
    -- 1895: x45 = np.zeros((nocc[0], nocc[0], nocc[0], nvir[0]), dtype=types[float])
    .zeros 214 [0, 0, 0, 1],
    -- 1896: x45 += einsum("ia,jkba->ijkb", t1.aa, x44)
    .add 214 (.ein [(10, [0, 1]), (213, [2, 3, 4, 1])] [0, 2, 3, 4]) 1 1,
    -- 1897: del x44
    .del 213,
    -- 1898: x48 += einsum("ijka->ijka", x45) * -0.9999999999999993
    .add 132 (.ein [(214, [0, 1, 2, 3])] [0, 1, 2, 3]) (-1) 1,
    -- 1899: del x45
    .del 214,
    -- 1900: x50 += einsum("ijka->jkia", x48)
    .add 139 (.ein [(132, [0, 1, 2, 3])] [1, 2, 0, 3]) 1 1,
    -- 1901: x50 += einsum("ijka->ikja", x48) * -1
    .add 139 (.ein [(132, [0, 1, 2, 3])] [0, 2, 1, 3]) (-1) 1,
    -- 1902: del x48
    .del 132,
    -- 1903: l1new_aa += einsum("abij,ikja->bk", l2.aaaa, x50)
    .add 79 (.ein [(25, [0, 1, 2, 3]), (139, [2, 4, 3, 0])] [1, 4]) 1 1,
    -- 1904: del x50
    .del 139,
    -- 1905: x51 = np.zeros((nocc[1], nocc[1], nvir[1], nvir[1]), dtype=types[float])
    .zeros 215 [4, 4, 5, 5],
    -- 1906: x51 += einsum("ijab->jiab", t2.bbbb) * -1
    .add 215 (.ein [(31, [0, 1, 2, 3])] [1, 0, 2, 3]) (-1) 1,
    -- 1907: x51 += einsum("ijab->jiba", t2.bbbb)
    .add 215 (.ein [(31, [0, 1, 2, 3])] [1, 0, 3, 2]) 1 1,
    -- 1908: x52 += einsum("abij,jkbc->ikac", l2.abab, x51) * -1
    .add 81 (.ein [(9, [0, 1, 2, 3]), (215, [3, 4, 1, 5])] [2, 4, 0, 5]) (-1) 1,
    -- 1909: l1new_aa += einsum("iabc,jiba->cj", v.bbaa.ovvv, x52) * -1
    .add 79 (.ein [(14, [0, 1, 2, 3]), (81, [4, 0, 2, 1])] [3, 4]) (-1) 1,
    -- 1910: del x52
    .del 81,
    -- 1911: x179 = np.zeros((nocc[1], nvir[1]), dtype=types[float])
    .zeros 216 [4, 5],
    -- 1912: x179 += einsum("ai,ijab->jb", l1.bb, x51)
    .add 216 (.ein [(40, [0, 1]), (215, [1, 2, 0, 3])] [2, 3]) 1 1,
    -- 1913: x186 += einsum("ia->ia", x179) * -1
    .add 84 (.ein [(216, [0, 1])] [0, 1]) (-1) 1,
    -- 1914: del x179
    .del 216,
    -- 1915: x190 = np.zeros((nvir[1], nvir[1]), dtype=types[float])
    .zeros 217 [5, 5],
    -- 1916: x190 += einsum("abij,ijbc->ac", l2.bbbb, x51)
    .add 217 (.ein [(33, [0, 1, 2, 3]), (215, [2, 3, 1, 4])] [0, 4]) 1 1,
    -- 1917: x191 = np.zeros((nvir[1], nvir[1]), dtype=types[float])
    .zeros 218 [5, 5],
    -- 1918: x191 += einsum("ab->ab", x190) * -1
    .add 218 (.ein [(217, [0, 1])] [0, 1]) (-1) 1,
    -- 1919: x422 = np.zeros((nvir[1], nvir[1]), dtype=types[float])
    .zeros 219 [5, 5],
    -- 1920: x422 += einsum("ab->ab", x190) * -1
    .add 219 (.ein [(217, [0, 1])] [0, 1]) (-1) 1,
    -- 1921: x478 = np.zeros((nvir[1], nvir[1]), dtype=types[float])
    .zeros 220 [5, 5],
    -- 1922: x478 += einsum("ab->ab", x190) * -1
    .add 220 (.ein [(217, [0, 1])] [0, 1]) (-1) 1,
    -- 1923: del x190
    .del 217,
    -- 1924: x53 = np.zeros((nocc[0], nocc[0], nocc[1], nvir[1]), dtype=types[float])
    .zeros 221 [0, 0, 4, 5],
    -- 1925: x53 += einsum("ia,abjk->jikb", t1.aa, l2.abab)
    .add 221 (.ein [(10, [0, 1]), (9, [1, 2, 3, 4])] [3, 0, 4, 2]) 1 1,
    -- 1926: x60 = np.zeros((nocc[0], nocc[0], nocc[0], nvir[0]), dtype=types[float])
    .zeros 222 [0, 0, 0, 1],
    -- 1927: x60 += einsum("ijab,kljb->kila", t2.abab, x53)
    .add 222 (.ein [(13, [0, 1, 2, 3]), (221, [4, 5, 1, 3])] [4, 0, 5, 2]) 1 1,
    -- 1928: x68 += einsum("ijab,klia->kljb", x51, x53) * -1
    .add 82 (.ein [(215, [0, 1, 2, 3]), (221, [4, 5, 0, 2])] [4, 5, 1, 3]) (-1) 1,
    -- 1929: x159 = np.zeros((nocc[0], nvir[0]), dtype=types[float])
    .zeros 223 [0, 1],
    -- 1930: x159 += einsum("ijab,ikjb->ka", t2.abab, x53)
    .add 223 (.ein [(13, [0, 1, 2, 3]), (221, [0, 4, 1, 3])] [4, 2]) 1 1,
    -- 1931: x165 += einsum("ia->ia", x159)
    .add 143 (.ein [(223, [0, 1])] [0, 1]) 1 1,
    -- 1932: del x159
    .del 223,
    -- 1933: x249 += einsum("ia,ijkb->jkab", t1.aa, x53)
    .add 148 (.ein [(10, [0, 1]), (221, [0, 2, 3, 4])] [2, 3, 1, 4]) 1 1,
    -- 1934: x258 += einsum("ijab,iklb->klja", t2.abab, x53)
    .add 92 (.ein [(13, [0, 1, 2, 3]), (221, [0, 4, 5, 3])] [4, 5, 1, 2]) 1 1,
    -- 1935: x364 = np.zeros((nocc[1], nocc[1], nvir[1], nvir[1]), dtype=types[float])
    .zeros 224 [4, 4, 5, 5],
    -- 1936: x364 += einsum("ijka,jilb->lkba", v.aabb.ooov, x53)
    .add 224 (.ein [(12, [0, 1, 2, 3]), (221, [1, 0, 4, 5])] [4, 2, 5, 3]) 1 1,
    -- 1937: x403 = np.zeros((nocc[1], nocc[1], nvir[1], nvir[1]), dtype=types[float])
    .zeros 225 [4, 4, 5, 5],
    -- 1938: x403 -= einsum("ijab->ijab", x364)
    .add 225 (.ein [(224, [0, 1, 2, 3])] [0, 1, 2, 3]) (-1) 1,
    -- 1939: del x364
    .del 224,
    -- 1940: x367 = np.zeros((nocc[1], nocc[1], nvir[1], nvir[1]), dtype=types[float])
    .zeros 226 [4, 4, 5, 5],
    -- 1941: x367 += einsum("ijka,ijlb->lkba", x21, x53)
    .add 226 (.ein [(155, [0, 1, 2, 3]), (221, [0, 1, 4, 5])] [4, 2, 5, 3]) 1 1,
    -- 1942: del x21
    .del 155,
    -- 1943: x403 -= einsum("ijab->ijab", x367)
    .add 225 (.ein [(226, [0, 1, 2, 3])] [0, 1, 2, 3]) (-1) 1,
    -- 1944: del x367
    .del 226,
    -- 1945: x433 = np.zeros((nocc[0], nocc[1], nvir[0], nvir[1]), dtype=types[float])
    .zeros 227 [0, 4, 1, 5],
    -- 1946: x433 += einsum("iabc,jikb->jkac", v.aabb.ovvv, x53)
    .add 227 (.ein [(19, [0, 1, 2, 3]), (221, [4, 0, 5, 2])] [4, 5, 1, 3]) 1 1,
    -- 1947: l2new_baba -= einsum("ijab->baji", x433)
    .add 89 (.ein [(227, [0, 1, 2, 3])] [3, 2, 1, 0]) (-1) 1,
    -- 1948: l2new_abab -= einsum("ijab->abij", x433)
    .add 90 (.ein [(227, [0, 1, 2, 3])] [2, 3, 0, 1]) (-1) 1,
    -- 1949: del x433
    .del 227,
    -- 1950: x464 = np.zeros((nocc[0], nocc[1], nvir[0], nvir[1]), dtype=types[float])
    .zeros 228 [0, 4, 1, 5],
    -- 1951: x464 += einsum("ijka,likb->ljab", x30, x53)
    .add 228 (.ein [(181, [0, 1, 2, 3]), (221, [4, 0, 2, 5])] [4, 1, 3, 5]) 1 1,
    -- 1952: l2new_baba += einsum("ijab->baji", x464)
    .add 89 (.ein [(228, [0, 1, 2, 3])] [3, 2, 1, 0]) 1 1,
    -- 1953: l2new_abab += einsum("ijab->abij", x464)
    .add 90 (.ein [(228, [0, 1, 2, 3])] [2, 3, 0, 1]) 1 1,
    -- 1954: del x464
    .del 228,
    -- 1955: x483 = np.zeros((nocc[0], nocc[1], nvir[0], nvir[1]), dtype=types[float])
    .zeros 229 [0, 4, 1, 5],
    -- 1956: x483 += einsum("ia,jikb->jkab", x31, x53)
    .add 229 (.ein [(100, [0, 1]), (221, [2, 0, 3, 4])] [2, 3, 1, 4]) 1 1,
    -- 1957: l2new_baba += einsum("ijab->baji", x483) * -1
    .add 89 (.ein [(229, [0, 1, 2, 3])] [3, 2, 1, 0]) (-1) 1,
    -- 1958: l2new_abab += einsum("ijab->abij", x483) * -1
    .add 90 (.ein [(229, [0, 1, 2, 3])] [2, 3, 0, 1]) (-1) 1,
    -- 1959: del x483
    .del 229,
    -- 1960: l1new_aa += einsum("ijab,kijb->ak", x38, x53) * -1
    .add 79 (.ein [(201, [0, 1, 2, 3]), (221, [4, 0, 1, 3])] [2, 4]) (-1) 1,
    -- 1961: del x38
    .del 201,
    -- 1962: l1new_bb -= einsum("ijab,jika->bk", v.aabb.oovv, x53)
    .add 80 (.ein [(39, [0, 1, 2, 3]), (221, [1, 0, 4, 2])] [3, 4]) (-1) 1,
    -- 1963: l2new_baba += einsum("ijka,ijlb->balk", x466, x53) * -1
    .add 89 (.ein [(137, [0, 1, 2, 3]), (221, [0, 1, 4, 5])] [5, 3, 4, 2]) (-1) 1,
    -- 1964: l2new_abab += einsum("ijka,iklb->abjl", x466, x53)
    .add 90 (.ein [(137, [0, 1, 2, 3]), (221, [0, 2, 4, 5])] [3, 5, 1, 4]) 1 1,
    -- 1965: del x466
    .del 137,
    -- 1966: x54 = np.zeros((nocc[0], nocc[0], nocc[0], nvir[0]), dtype=types[float])
    .zeros 230 [0, 0, 0, 1],
    -- 1967: x54 += einsum("ia,abjk->kjib", t1.aa, l2.aaaa)
    .add 230 (.ein [(10, [0, 1]), (25, [1, 2, 3, 4])] [4, 3, 0, 2]) 1 1,
    -- 1968: x55 = np.zeros((nocc[0], nocc[0], nocc[0], nvir[0]), dtype=types[float])
    .zeros 231 [0, 0, 0, 1],
    -- 1969: x55 += einsum("ijka->ijka", x54) * -1
    .add 231 (.ein [(230, [0, 1, 2, 3])] [0, 1, 2, 3]) (-1) 1,
    -- 1970: x55 += einsum("ijka->jika", x54)
    .add 231 (.ein [(230, [0, 1, 2, 3])] [1, 0, 2, 3]) 1 1,
    -- 1971: x68 += einsum("ijab,kila->kljb", t2.abab, x55) * -1
    .add 82 (.ein [(13, [0, 1, 2, 3]), (231, [4, 0, 5, 2])] [4, 5, 1, 3]) (-1) 1,
    -- 1972: l1new_aa += einsum("ijab,kjia->bk", x23, x55) * -1
    .add 79 (.ein [(161, [0, 1, 2, 3]), (231, [4, 1, 0, 2])] [3, 4]) (-1) 1,
    -- 1973: del x23
    .del 161,
    -- 1974: x62 = np.zeros((nocc[0], nocc[0], nocc[0], nvir[0]), dtype=types[float])
    .zeros 232 [0, 0, 0, 1],
    -- 1975: x62 += einsum("ijka->ijka", x54)
    .add 232 (.ein [(230, [0, 1, 2, 3])] [0, 1, 2, 3]) 1 1,
    -- 1976: x62 += einsum("ijka->jika", x54) * -1
    .add 232 (.ein [(230, [0, 1, 2, 3])] [1, 0, 2, 3]) (-1) 1,
    -- 1977: x63 = np.zeros((nocc[0], nocc[0], nvir[0], nvir[0]), dtype=types[float])
    .zeros 233 [0, 0, 1, 1],
    -- 1978: x63 += einsum("ia,jikb->jkba", t1.aa, x62) * -1
    .add 233 (.ein [(10, [0, 1]), (232, [2, 0, 3, 4])] [2, 3, 4, 1]) (-1) 1,
    -- 1979: l1new_aa += einsum("iabc,jiab->cj", x43, x63)
    .add 79 (.ein [(208, [0, 1, 2, 3]), (233, [4, 0, 1, 2])] [3, 4]) 1 1,
    -- 1980: del x43
    .del 208,
    -- 1981: del x63
    .del 233,
    -- 1982: x342 = np.zeros((nocc[0], nocc[0], nvir[0], nvir[0]), dtype=types[float])
    .zeros 234 [0, 0, 1, 1],
    -- 1983: x342 += einsum("ijka,likb->ljba", x341, x62)
    .add 234 (.ein [(136, [0, 1, 2, 3]), (232, [4, 0, 2, 5])] [4, 1, 5, 3]) 1 1,
    -- 1984: del x341
    .del 136,
    -- 1985: x355 += einsum("ijab->ijab", x342)
    .add 206 (.ein [(234, [0, 1, 2, 3])] [0, 1, 2, 3]) 1 1,
    -- 1986: del x342
    .del 234,
    -- 1987: l2new_abab += einsum("ijka,ljib->balk", x22, x62) * -1
    .add 90 (.ein [(156, [0, 1, 2, 3]), (232, [4, 1, 0, 5])] [5, 3, 4, 2]) (-1) 1,
    -- 1988: del x62
    .del 232,
    -- 1989: x71 = np.zeros((nocc[0], nocc[0], nocc[0], nocc[0]), dtype=types[float])
    .zeros 235 [0, 0, 0, 0],
    -- 1990: x71 += einsum("ia,jkla->kjli", t1.aa, x54)
    .add 235 (.ein [(10, [0, 1]), (230, [2, 3, 4, 1])] [3, 2, 4, 0]) 1 1,
    -- 1991: x72 = np.zeros((nocc[0], nocc[0], nocc[0], nocc[0]), dtype=types[float])
    .zeros 236 [0, 0, 0, 0],
    -- 1992: x72 += einsum("ijkl->ijkl", x71)
    .add 236 (.ein [(235, [0, 1, 2, 3])] [0, 1, 2, 3]) 1 1,
    -- 1993: x117 = np.zeros((nocc[0], nocc[0], nocc[0], nocc[0]), dtype=types[float])
    .zeros 237 [0, 0, 0, 0],
    -- 1994: x117 += einsum("ijkl->ijkl", x71) * -1
    .add 237 (.ein [(235, [0, 1, 2, 3])] [0, 1, 2, 3]) (-1) 1,
    -- 1995: x117 += einsum("ijkl->ijlk", x71)
    .add 237 (.ein [(235, [0, 1, 2, 3])] [0, 1, 3, 2]) 1 1,
    -- 1996: l1new_aa += einsum("ijka,ljik->al", v.aaaa.ooov, x117)
    .add 79 (.ein [(27, [0, 1, 2, 3]), (237, [4, 1, 0, 2])] [3, 4]) 1 1,
    -- 1997: del x117
    .del 237,
    -- 1998: x358 = np.zeros((nocc[0], nocc[0], nocc[0], nocc[0]), dtype=types[float])
    .zeros 238 [0, 0, 0, 0],
    -- 1999: x358 += einsum("ijkl->ijkl", x71)
    .add 238 (.ein [(235, [0, 1, 2, 3])] [0, 1, 2, 3]) 1 1,
    -- 2000: del x71
    .del 235,
    -- 2001: x160 = np.zeros((nocc[0], nvir[0]), dtype=types[float])
    .zeros 239 [0, 1],
    -- 2002: x160 += einsum("ijab,jikb->ka", x20, x54)
    .add 239 (.ein [(138, [0, 1, 2, 3]), (230, [1, 0, 4, 3])] [4, 2]) 1 1,
    -- 2003: del x20
    .del 138,
    -- 2004: x165 += einsum("ia->ia", x160) * -1
    .add 143 (.ein [(239, [0, 1])] [0, 1]) (-1) 1,
    -- 2005: del x160
    .del 239,
    -- 2006: x294 = np.zeros((nocc[0], nocc[0], nvir[0], nvir[0]), dtype=types[float])
    .zeros 240 [0, 0, 1, 1],
    -- 2007: x294 += einsum("iabc,jkib->kjac", v.aaaa.ovvv, x54)
    .add 240 (.ein [(23, [0, 1, 2, 3]), (230, [4, 5, 0, 2])] [5, 4, 1, 3]) 1 1,
    -- 2008: x333 -= einsum("ijab->ijab", x294)
    .add 87 (.ein [(240, [0, 1, 2, 3])] [0, 1, 2, 3]) (-1) 1,
    -- 2009: del x294
    .del 240,
    -- 2010: x306 = np.zeros((nocc[0], nocc[0], nocc[0], nvir[0]), dtype=types[float])
    .zeros 241 [0, 0, 0, 1],
    -- 2011: x306 += einsum("ijka->ijka", x54)
    .add 241 (.ein [(230, [0, 1, 2, 3])] [0, 1, 2, 3]) 1 1,
    -- 2012: x306 -= einsum("ijka->jika", x54)
    .add 241 (.ein [(230, [0, 1, 2, 3])] [1, 0, 2, 3]) (-1) 1,
    -- 2013: l2new_baba += einsum("ijka,ljib->abkl", x22, x306) * -1
    .add 89 (.ein [(156, [0, 1, 2, 3]), (241, [4, 1, 0, 5])] [3, 5, 2, 4]) (-1) 1,
    -- 2014: del x22
    .del 156,
    -- 2015: x354 = np.zeros((nocc[0], nocc[0], nvir[0], nvir[0]), dtype=types[float])
    .zeros 242 [0, 0, 1, 1],
    -- 2016: x354 += einsum("ia,jkib->jkba", x15, x54)
    .add 242 (.ein [(114, [0, 1]), (230, [2, 3, 0, 4])] [2, 3, 4, 1]) 1 1,
    -- 2017: del x15
    .del 114,
    -- 2018: x355 += einsum("ijab->ijab", x354)
    .add 206 (.ein [(242, [0, 1, 2, 3])] [0, 1, 2, 3]) 1 1,
    -- 2019: del x354
    .del 242,
    -- 2020: x56 = np.zeros((nocc[0], nocc[0], nvir[0], nvir[0]), dtype=types[float])
    .zeros 243 [0, 0, 1, 1],
    -- 2021: x56 += einsum("ijab->jiab", t2.aaaa) * -1
    .add 243 (.ein [(21, [0, 1, 2, 3])] [1, 0, 2, 3]) (-1) 1,
    -- 2022: x56 += einsum("ijab->jiba", t2.aaaa)
    .add 243 (.ein [(21, [0, 1, 2, 3])] [1, 0, 3, 2]) 1 1,
    -- 2023: x58 = np.zeros((nocc[0], nocc[0]), dtype=types[float])
    .zeros 244 [0, 0],
    -- 2024: x58 += einsum("abij,ikba->jk", l2.aaaa, x56)
    .add 244 (.ein [(25, [0, 1, 2, 3]), (243, [2, 4, 1, 0])] [3, 4]) 1 1,
    -- 2025: x59 = np.zeros((nocc[0], nocc[0]), dtype=types[float])
    .zeros 245 [0, 0],
    -- 2026: x59 += einsum("ij->ij", x58) * -1
    .add 245 (.ein [(244, [0, 1])] [0, 1]) (-1) 1,
    -- 2027: x163 += einsum("ij->ij", x58) * -1
    .add 95 (.ein [(244, [0, 1])] [0, 1]) (-1) 1,
    -- 2028: x205 = np.zeros((nocc[0], nocc[0]), dtype=types[float])
    .zeros 246 [0, 0],
    -- 2029: x205 += einsum("ij->ij", x58) * -1
    .add 246 (.ein [(244, [0, 1])] [0, 1]) (-1) 1,
    -- 2030: del x58
    .del 244,
    -- 2031: x60 += einsum("ijka,ilba->jlkb", x55, x56)
    .add 222 (.ein [(231, [0, 1, 2, 3]), (243, [0, 4, 5, 3])] [1, 4, 2, 5]) 1 1,
    -- 2032: del x55
    .del 231,
    -- 2033: x86 = np.zeros((nocc[0], nvir[0]), dtype=types[float])
    .zeros 247 [0, 1],
    -- 2034: x86 += einsum("ia,ijba->jb", x31, x56)
    .add 247 (.ein [(100, [0, 1]), (243, [0, 2, 3, 1])] [2, 3]) 1 1,
    -- 2035: del x31
    .del 100,
    -- 2036: x116 += einsum("ia->ia", x86) * -1
    .add 141 (.ein [(247, [0, 1])] [0, 1]) (-1) 1,
    -- 2037: del x86
    .del 247,
    -- 2038: x101 = np.zeros((nocc[0], nocc[0]), dtype=types[float])
    .zeros 248 [0, 0],
    -- 2039: x101 += einsum("iajb,ikba->kj", v.aaaa.ovov, x56)
    .add 248 (.ein [(24, [0, 1, 2, 3]), (243, [0, 4, 3, 1])] [4, 2]) 1 1,
    -- 2040: x105 += einsum("ij->ji", x101) * -1
    .add 190 (.ein [(248, [0, 1])] [1, 0]) (-1) 1,
    -- 2041: x345 += einsum("ij->ij", x101) * -1
    .add 121 (.ein [(248, [0, 1])] [0, 1]) (-1) 1,
    -- 2042: del x101
    .del 248,
    -- 2043: x228 += einsum("ijka,ilba->ljkb", x30, x56) * -1
    .add 159 (.ein [(181, [0, 1, 2, 3]), (243, [0, 4, 5, 3])] [4, 1, 2, 5]) (-1) 1,
    -- 2044: x439 = np.zeros((nocc[0], nocc[1], nvir[0], nvir[1]), dtype=types[float])
    .zeros 249 [0, 4, 1, 5],
    -- 2045: x439 += einsum("iajb,ikca->kjcb", v.aabb.ovov, x56)
    .add 249 (.ein [(16, [0, 1, 2, 3]), (243, [0, 4, 5, 1])] [4, 2, 5, 3]) 1 1,
    -- 2046: x441 = np.zeros((nocc[0], nocc[1], nvir[0], nvir[1]), dtype=types[float])
    .zeros 250 [0, 4, 1, 5],
    -- 2047: x441 += einsum("ijab->ijab", x439) * -1
    .add 250 (.ein [(249, [0, 1, 2, 3])] [0, 1, 2, 3]) (-1) 1,
    -- 2048: del x439
    .del 249,
    -- 2049: x500 = np.zeros((nbos, nocc[0], nvir[0]), dtype=types[float])
    .zeros 251 [2, 0, 1],
    -- 2050: x500 += einsum("wia,ijba->wjb", g.aa.bov, x56)
    .add 251 (.ein [(2, [0, 1, 2]), (243, [1, 3, 4, 2])] [0, 3, 4]) 1 1,
    -- 2051: x502 = np.zeros((nbos, nocc[0], nvir[0]), dtype=types[float])
    .zeros 252 [2, 0, 1],
    -- 2052: x502 += einsum("wia->wia", x500) * -1
    .add 252 (.ein [(251, [0, 1, 2])] [0, 1, 2]) (-1) 1,
    -- 2053: del x500
    .del 251,
    -- 2054: x505 = np.zeros((nbos, nocc[0], nvir[0]), dtype=types[float])
    .zeros 253 [2, 0, 1],
    -- 2055: x505 += einsum("wai,ijba->wjb", lu11.aa, x56)
    .add 253 (.ein [(41, [0, 1, 2]), (243, [2, 3, 4, 1])] [0, 3, 4]) 1 1,
    -- 2056: x506 = np.zeros((nbos, nocc[0], nvir[0]), dtype=types[float])
    .zeros 254 [2, 0, 1],
    -- 2057: x506 += einsum("wia->wia", x505) * -1
    .add 254 (.ein [(253, [0, 1, 2])] [0, 1, 2]) (-1) 1,
    -- 2058: del x505
    .del 253,
    -- 2059: x57 = np.zeros((nocc[0], nocc[0]), dtype=types[float])
    .zeros 255 [0, 0],
    -- 2060: x57 += einsum("abij,kjab->ik", l2.abab, t2.abab)
    .add 255 (.ein [(9, [0, 1, 2, 3]), (13, [4, 3, 0, 1])] [2, 4]) 1 1,
    -- 2061: x59 += einsum("ij->ij", x57)
    .add 245 (.ein [(255, [0, 1])] [0, 1]) 1 1,
    -- 2062: x60 += einsum("ia,jk->jika", t1.aa, x59)
    .add 222 (.ein [(10, [0, 1]), (245, [2, 3])] [2, 0, 3, 1]) 1 1,
    -- 2063: x68 += einsum("ia,jk->jkia", t1.bb, x59) * -1
    .add 82 (.ein [(8, [0, 1]), (245, [2, 3])] [2, 3, 0, 1]) (-1) 1,
    -- 2064: x353 = np.zeros((nocc[0], nocc[0], nvir[0], nvir[0]), dtype=types[float])
    .zeros 256 [0, 0, 1, 1],
    -- 2065: x353 += einsum("ij,jakb->ikab", x59, v.aaaa.ovov)
    .add 256 (.ein [(245, [0, 1]), (24, [1, 2, 3, 4])] [0, 3, 2, 4]) 1 1,
    -- 2066: x355 += einsum("ijab->ijba", x353) * -1
    .add 206 (.ein [(256, [0, 1, 2, 3])] [0, 1, 3, 2]) (-1) 1,
    -- 2067: del x353
    .del 256,
    -- 2068: l1new_aa += einsum("ia,ji->aj", f.aa.ov, x59) * -1
    .add 79 (.ein [(20, [0, 1]), (245, [2, 0])] [1, 2]) (-1) 1,
    -- 2069: del x59
    .del 245,
    -- 2070: x163 += einsum("ij->ij", x57)
    .add 95 (.ein [(255, [0, 1])] [0, 1]) 1 1,
    -- 2071: x205 += einsum("ij->ij", x57)
    .add 246 (.ein [(255, [0, 1])] [0, 1]) 1 1,
    -- 2072: del x57
    .del 255,
    -- 2073: x61 = np.zeros((nocc[0], nocc[0], nvir[0], nvir[0]), dtype=types[float])
    .zeros 257 [0, 0, 1, 1],
    -- 2074: x61 += einsum("iajb->jiab", v.aaaa.ovov)
    .add 257 (.ein [(24, [0, 1, 2, 3])] [2, 0, 1, 3]) 1 1,
    -- 2075: x61 += einsum("iajb->jiba", v.aaaa.ovov) * -1
    .add 257 (.ein [(24, [0, 1, 2, 3])] [2, 0, 3, 1]) (-1) 1,
    -- 2076: x447 = np.zeros((nocc[0], nocc[0], nvir[0], nvir[0]), dtype=types[float])
    .zeros 258 [0, 0, 1, 1],
    -- 2077: x447 += einsum("ijab,ikbc->jkac", x56, x61)
    .add 258 (.ein [(243, [0, 1, 2, 3]), (257, [0, 4, 3, 5])] [1, 4, 2, 5]) 1 1,
    -- 2078: del x56
    .del 243,
    -- 2079: x449 += einsum("ijab->jiab", x447)
    .add 212 (.ein [(258, [0, 1, 2, 3])] [1, 0, 2, 3]) 1 1,
    -- 2080: del x447
    .del 258,
    -- 2081: l1new_aa += einsum("ijka,kjab->bi", x60, x61) * -1
    .add 79 (.ein [(222, [0, 1, 2, 3]), (257, [2, 1, 3, 4])] [4, 0]) (-1) 1,
    -- 2082: del x60
    .del 222,
    -- 2083: x64 = np.zeros((nocc[0], nvir[0], nvir[0], nvir[0]), dtype=types[float])
    .zeros 259 [0, 1, 1, 1],
    -- 2084: x64 += einsum("ia,bcda->ibdc", t1.aa, v.aaaa.vvvv)
    .add 259 (.ein [(10, [0, 1]), (42, [2, 3, 4, 1])] [0, 2, 4, 3]) 1 1,
    -- 2085: x65 = np.zeros((nocc[0], nvir[0], nvir[0], nvir[0]), dtype=types[float])
    .zeros 260 [0, 1, 1, 1],
    -- 2086: x65 += einsum("iabc->iabc", x64) * -1
    .add 260 (.ein [(259, [0, 1, 2, 3])] [0, 1, 2, 3]) (-1) 1,
    -- 2087: del x64
    .del 259,
    -- 2088: x65 += einsum("aibc->iabc", v.aaaa.vovv)
    .add 260 (.ein [(43, [0, 1, 2, 3])] [1, 0, 2, 3]) 1 1,
    -- 2089: x66 = np.zeros((nocc[0], nvir[0], nvir[0], nvir[0]), dtype=types[float])
    .zeros 261 [0, 1, 1, 1],
    -- 2090: x66 += einsum("iabc->iabc", x65)
    .add 261 (.ein [(260, [0, 1, 2, 3])] [0, 1, 2, 3]) 1 1,
    -- 2091: x66 += einsum("iabc->ibac", x65) * -1
    .add 261 (.ein [(260, [0, 1, 2, 3])] [0, 2, 1, 3]) (-1) 1,
    -- 2092: del x65
    .del 260,
    -- 2093: l1new_aa += einsum("abij,ibac->cj", l2.aaaa, x66) * -1
    .add 79 (.ein [(25, [0, 1, 2, 3]), (261, [2, 1, 0, 4])] [4, 3]) (-1) 1,
    -- 2094: del x66
    .del 261,
    -- 2095: x68 += einsum("ai,jkab->ijkb", l1.aa, t2.abab) * -1
    .add 82 (.ein [(17, [0, 1]), (13, [2, 3, 0, 4])] [1, 2, 3, 4]) (-1) 1,
    -- 2096: l1new_aa += einsum("iajb,kijb->ak", v.aabb.ovov, x68)
    .add 79 (.ein [(16, [0, 1, 2, 3]), (82, [4, 0, 2, 3])] [1, 4]) 1 1,
    -- 2097: del x68
    .del 82,
    -- 2098: x69 = np.zeros((nocc[0], nocc[0], nocc[0], nvir[0]), dtype=types[float])
    .zeros 262 [0, 0, 0, 1],
    -- 2099: x69 += einsum("ai,jkab->ikjb", l1.aa, t2.aaaa)
    .add 262 (.ein [(17, [0, 1]), (21, [2, 3, 0, 4])] [1, 3, 2, 4]) 1 1,
    -- 2100: x74 = np.zeros((nocc[0], nocc[0], nocc[0], nvir[0]), dtype=types[float])
    .zeros 263 [0, 0, 0, 1],
    -- 2101: x74 += einsum("ijka->ijka", x69)
    .add 263 (.ein [(262, [0, 1, 2, 3])] [0, 1, 2, 3]) 1 1,
    -- 2102: del x69
    .del 262,
    -- 2103: x70 = np.zeros((nocc[0], nocc[0], nocc[0], nocc[0]), dtype=types[float])
    .zeros 264 [0, 0, 0, 0],
    -- 2104: x70 += einsum("abij,klab->ijkl", l2.aaaa, t2.aaaa)
    .add 264 (.ein [(25, [0, 1, 2, 3]), (21, [4, 5, 0, 1])] [2, 3, 4, 5]) 1 1,
    -- 2105: x72 += einsum("ijkl->jilk", x70)
    .add 236 (.ein [(264, [0, 1, 2, 3])] [1, 0, 3, 2]) 1 1,
    -- 2106: x73 = np.zeros((nocc[0], nocc[0], nocc[0], nvir[0]), dtype=types[float])
    .zeros 265 [0, 0, 0, 1],
    -- 2107: x73 += einsum("ia,ijkl->jkla", t1.aa, x72)
    .add 265 (.ein [(10, [0, 1]), (236, [0, 2, 3, 4])] [2, 3, 4, 1]) 1 1,
    -- 2108: del x72
    .del 236,
    -- 2109: x74 += einsum("ijka->ikja", x73)
    .add 263 (.ein [(265, [0, 1, 2, 3])] [0, 2, 1, 3]) 1 1,
    -- 2110: del x73
    .del 265,
    -- 2111: x75 = np.zeros((nocc[0], nocc[0], nocc[0], nvir[0]), dtype=types[float])
    .zeros 266 [0, 0, 0, 1],
    -- 2112: x75 += einsum("ijka->ikja", x74)
    .add 266 (.ein [(263, [0, 1, 2, 3])] [0, 2, 1, 3]) 1 1,
    -- 2113: x75 += einsum("ijka->ijka", x74) * -1
    .add 266 (.ein [(263, [0, 1, 2, 3])] [0, 1, 2, 3]) (-1) 1,
    -- 2114: del x74
    .del 263,
    -- 2115: l1new_aa += einsum("iajb,kijb->ak", v.aaaa.ovov, x75) * -1
    .add 79 (.ein [(24, [0, 1, 2, 3]), (266, [4, 0, 2, 3])] [1, 4]) (-1) 1,
    -- 2116: del x75
    .del 266,
    -- 2117: x118 = np.zeros((nocc[0], nocc[0], nocc[0], nocc[0]), dtype=types[float])
    .zeros 267 [0, 0, 0, 0],
    -- 2118: x118 += einsum("ijkl->jikl", x70)
    .add 267 (.ein [(264, [0, 1, 2, 3])] [1, 0, 2, 3]) 1 1,
    -- 2119: x118 += einsum("ijkl->jilk", x70) * -1
    .add 267 (.ein [(264, [0, 1, 2, 3])] [1, 0, 3, 2]) (-1) 1,
    -- 2120: l1new_aa += einsum("ijka,jlik->al", v.aaaa.ooov, x118) * -1
    .add 79 (.ein [(27, [0, 1, 2, 3]), (267, [1, 4, 0, 2])] [3, 4]) (-1) 1,
    -- 2121: del x118
    .del 267,
    -- 2122: x358 += einsum("ijkl->jilk", x70)
    .add 238 (.ein [(264, [0, 1, 2, 3])] [1, 0, 3, 2]) 1 1,
    -- 2123: del x70
    .del 264,
    -- 2124: x359 = np.zeros((nocc[0], nocc[0], nvir[0], nvir[0]), dtype=types[float])
    .zeros 268 [0, 0, 1, 1],
    -- 2125: x359 += einsum("iajb,klji->klab", v.aaaa.ovov, x358)
    .add 268 (.ein [(24, [0, 1, 2, 3]), (238, [4, 5, 2, 0])] [4, 5, 1, 3]) 1 1,
    -- 2126: del x358
    .del 238,
    -- 2127: x360 += einsum("ijab->jiab", x359)
    .add 112 (.ein [(268, [0, 1, 2, 3])] [1, 0, 2, 3]) 1 1,
    -- 2128: del x359
    .del 268,
    -- 2129: l2new_aaaa = np.zeros((nvir[0], nvir[0], nocc[0], nocc[0]), dtype=types[float])
    .zeros 269 [1, 1, 0, 0],
    -- 2130: l2new_aaaa += einsum("ijab->abij", x360)
    .add 269 (.ein [(112, [0, 1, 2, 3])] [2, 3, 0, 1]) 1 1,
    -- 2131: l2new_aaaa += einsum("ijab->baij", x360) * -1
    .add 269 (.ein [(112, [0, 1, 2, 3])] [3, 2, 0, 1]) (-1) 1,
    -- 2132: del x360
    .del 112,
    -- 2133: x76 = np.zeros((nocc[1], nvir[0], nvir[0], nvir[1]), dtype=types[float])
    .zeros 270 [4, 1, 1, 5],
    -- 2134: x76 += einsum("abci->iabc", v.aabb.vvvo)
    .add 270 (.ein [(44, [0, 1, 2, 3])] [3, 0, 1, 2]) 1 1,
    -- 2135: x76 += einsum("ia,bcda->ibcd", t1.bb, v.aabb.vvvv)
    .add 270 (.ein [(8, [0, 1]), (45, [2, 3, 4, 1])] [0, 2, 3, 4]) 1 1,
    -- 2136: l1new_aa += einsum("abij,jacb->ci", l2.abab, x76)
    .add 79 (.ein [(9, [0, 1, 2, 3]), (270, [3, 0, 4, 1])] [4, 2]) 1 1,
    -- 2137: del x76
    .del 270,
    -- 2138: x77 = np.zeros((nocc[0], nvir[0]), dtype=types[float])
    .zeros 271 [0, 1],
    -- 2139: x77 += einsum("w,wai->ia", s1, g.aa.bvo)
    .add 271 (.ein [(18, [0]), (1, [0, 1, 2])] [2, 1]) 1 1,
    -- 2140: x116 += einsum("ia->ia", x77)
    .add 141 (.ein [(271, [0, 1])] [0, 1]) 1 1,
    -- 2141: del x77
    .del 271,
    -- 2142: x78 = np.zeros((nocc[0], nvir[0]), dtype=types[float])
    .zeros 272 [0, 1],
    -- 2143: x78 += einsum("wab,wib->ia", g.aa.bvv, u11.aa)
    .add 272 (.ein [(3, [0, 1, 2]), (26, [0, 3, 2])] [3, 1]) 1 1,
    -- 2144: x116 += einsum("ia->ia", x78)
    .add 141 (.ein [(272, [0, 1])] [0, 1]) 1 1,
    -- 2145: del x78
    .del 272,
    -- 2146: x79 = np.zeros((nocc[0], nvir[0]), dtype=types[float])
    .zeros 273 [0, 1],
    -- 2147: x79 += einsum("ia,iabj->jb", t1.bb, v.bbaa.ovvo)
    .add 273 (.ein [(8, [0, 1]), (46, [0, 1, 2, 3])] [3, 2]) 1 1,
    -- 2148: x116 += einsum("ia->ia", x79)
    .add 141 (.ein [(273, [0, 1])] [0, 1]) 1 1,
    -- 2149: del x79
    .del 273,
    -- 2150: x80 = np.zeros((nocc[0], nvir[0]), dtype=types[float])
    .zeros 274 [0, 1],
    -- 2151: x80 += einsum("ijab,jkib->ka", t2.aaaa, v.aaaa.ooov)
    .add 274 (.ein [(21, [0, 1, 2, 3]), (27, [1, 4, 0, 3])] [4, 2]) 1 1,
    -- 2152: x116 += einsum("ia->ia", x80)
    .add 141 (.ein [(274, [0, 1])] [0, 1]) 1 1,
    -- 2153: del x80
    .del 274,
    -- 2154: x81 = np.zeros((nocc[0], nvir[0]), dtype=types[float])
    .zeros 275 [0, 1],
    -- 2155: x81 += einsum("ijab,jbca->ic", t2.abab, v.bbaa.ovvv)
    .add 275 (.ein [(13, [0, 1, 2, 3]), (14, [1, 3, 4, 2])] [0, 4]) 1 1,
    -- 2156: x116 += einsum("ia->ia", x81)
    .add 141 (.ein [(275, [0, 1])] [0, 1]) 1 1,
    -- 2157: del x81
    .del 275,
    -- 2158: x83 += einsum("ijka->ikja", v.aaaa.ooov)
    .add 134 (.ein [(27, [0, 1, 2, 3])] [0, 2, 1, 3]) 1 1,
    -- 2159: x84 = np.zeros((nocc[0], nvir[0]), dtype=types[float])
    .zeros 276 [0, 1],
    -- 2160: x84 += einsum("ijab,ijkb->ka", t2.aaaa, x83)
    .add 276 (.ein [(21, [0, 1, 2, 3]), (134, [0, 1, 4, 3])] [4, 2]) 1 1,
    -- 2161: del x83
    .del 134,
    -- 2162: x116 += einsum("ia->ia", x84) * -1
    .add 141 (.ein [(276, [0, 1])] [0, 1]) (-1) 1,
    -- 2163: del x84
    .del 276,
    -- 2164: x87 = np.zeros((nocc[1], nvir[1]), dtype=types[float])
    .zeros 277 [4, 5],
    -- 2165: x87 += einsum("w,wia->ia", s1, g.bb.bov)
    .add 277 (.ein [(18, [0]), (6, [0, 1, 2])] [1, 2]) 1 1,
    -- 2166: x91 = np.zeros((nocc[1], nvir[1]), dtype=types[float])
    .zeros 278 [4, 5],
    -- 2167: x91 += einsum("ia->ia", x87)
    .add 278 (.ein [(277, [0, 1])] [0, 1]) 1 1,
    -- 2168: x235 = np.zeros((nocc[1], nvir[1]), dtype=types[float])
    .zeros 279 [4, 5],
    -- 2169: x235 += einsum("ia->ia", x87)
    .add 279 (.ein [(277, [0, 1])] [0, 1]) 1 1,
    -- 2170: x384 = np.zeros((nocc[1], nvir[1]), dtype=types[float])
    .zeros 280 [4, 5],
    -- 2171: x384 += einsum("ia->ia", x87)
    .add 280 (.ein [(277, [0, 1])] [0, 1]) 1 1,
    -- 2172: x494 = np.zeros((nocc[1], nvir[1]), dtype=types[float])
    .zeros 281 [4, 5],
    -- 2173: x494 += einsum("ia->ia", x87)
    .add 281 (.ein [(277, [0, 1])] [0, 1]) 1 1,
    -- 2174: x88 = np.zeros((nocc[1], nvir[1]), dtype=types[float])
    .zeros 282 [4, 5],
    -- 2175: x88 += einsum("ia,iajb->jb", t1.aa, v.aabb.ovov)
    .add 282 (.ein [(10, [0, 1]), (16, [0, 1, 2, 3])] [2, 3]) 1 1,
    -- 2176: x91 += einsum("ia->ia", x88)
    .add 278 (.ein [(282, [0, 1])] [0, 1]) 1 1,
    -- 2177: x241 = np.zeros((nocc[1], nvir[1]), dtype=types[float])
    .zeros 283 [4, 5],
    -- 2178: x241 += einsum("ia->ia", x88)
    .add 283 (.ein [(282, [0, 1])] [0, 1]) 1 1,
    -- 2179: x289 = np.zeros((nocc[1], nvir[1]), dtype=types[float])
    .zeros 284 [4, 5],
    -- 2180: x289 += einsum("ia->ia", x88)
    .add 284 (.ein [(282, [0, 1])] [0, 1]) 1 1,
    -- 2181: x402 = np.zeros((nocc[1], nvir[1]), dtype=types[float])
    .zeros 285 [4, 5],
    -- 2182: x402 += einsum("ia->ia", x88)
    .add 285 (.ein [(282, [0, 1])] [0, 1]) 1 1,
    -- 2183: x494 += einsum("ia->ia", x88)
    .add 281 (.ein [(282, [0, 1])] [0, 1]) 1 1,
    -- 2184: del x88
    .del 282,
    -- 2185: x89 = np.zeros((nocc[1], nocc[1], nvir[1], nvir[1]), dtype=types[float])
    .zeros 286 [4, 4, 5, 5],
    -- 2186: x89 += einsum("iajb->jiab", v.bbbb.ovov)
    .add 286 (.ein [(47, [0, 1, 2, 3])] [2, 0, 1, 3]) 1 1,
    -- 2187: x89 += einsum("iajb->jiba", v.bbbb.ovov) * -1
    .add 286 (.ein [(47, [0, 1, 2, 3])] [2, 0, 3, 1]) (-1) 1,
    -- 2188: x90 = np.zeros((nocc[1], nvir[1]), dtype=types[float])
    .zeros 287 [4, 5],
    -- 2189: x90 += einsum("ia,ijab->jb", t1.bb, x89)
    .add 287 (.ein [(8, [0, 1]), (286, [0, 2, 1, 3])] [2, 3]) 1 1,
    -- 2190: x91 += einsum("ia->ia", x90) * -1
    .add 278 (.ein [(287, [0, 1])] [0, 1]) (-1) 1,
    -- 2191: x241 += einsum("ia->ia", x90) * -1
    .add 283 (.ein [(287, [0, 1])] [0, 1]) (-1) 1,
    -- 2192: x242 = np.zeros((nocc[1], nocc[1], nocc[1], nvir[1]), dtype=types[float])
    .zeros 288 [4, 4, 4, 5],
    -- 2193: x242 += einsum("ia,jkab->jkib", x241, t2.bbbb)
    .add 288 (.ein [(283, [0, 1]), (31, [2, 3, 1, 4])] [2, 3, 0, 4]) 1 1,
    -- 2194: x247 = np.zeros((nocc[1], nocc[1], nocc[1], nvir[1]), dtype=types[float])
    .zeros 289 [4, 4, 4, 5],
    -- 2195: x247 += einsum("ijka->jika", x242)
    .add 289 (.ein [(288, [0, 1, 2, 3])] [1, 0, 2, 3]) 1 1,
    -- 2196: del x242
    .del 288,
    -- 2197: x415 = np.zeros((nocc[1], nocc[1]), dtype=types[float])
    .zeros 290 [4, 4],
    -- 2198: x415 += einsum("ia,ja->ij", t1.bb, x241)
    .add 290 (.ein [(8, [0, 1]), (283, [2, 1])] [0, 2]) 1 1,
    -- 2199: x416 = np.zeros((nocc[1], nocc[1]), dtype=types[float])
    .zeros 291 [4, 4],
    -- 2200: x416 += einsum("ij->ij", x415)
    .add 291 (.ein [(290, [0, 1])] [0, 1]) 1 1,
    -- 2201: del x415
    .del 290,
    -- 2202: x525 = np.zeros((nvir[1], nvir[1]), dtype=types[float])
    .zeros 292 [5, 5],
    -- 2203: x525 += einsum("ia,ib->ab", t1.bb, x241) * -1
    .add 292 (.ein [(8, [0, 1]), (283, [0, 2])] [1, 2]) (-1) 1,
    -- 2204: x289 += einsum("ia->ia", x90) * -1
    .add 284 (.ein [(287, [0, 1])] [0, 1]) (-1) 1,
    -- 2205: del x90
    .del 287,
    -- 2206: x274 = np.zeros((nbos, nocc[1], nvir[1]), dtype=types[float])
    .zeros 293 [2, 4, 5],
    -- 2207: x274 += einsum("wia,ijab->wjb", u11.bb, x89)
    .add 293 (.ein [(48, [0, 1, 2]), (286, [1, 3, 2, 4])] [0, 3, 4]) 1 1,
    -- 2208: x275 = np.zeros((nbos, nocc[1], nvir[1]), dtype=types[float])
    .zeros 294 [2, 4, 5],
    -- 2209: x275 += einsum("wia->wia", x274) * -1
    .add 294 (.ein [(293, [0, 1, 2])] [0, 1, 2]) (-1) 1,
    -- 2210: del x274
    .del 293,
    -- 2211: x414 = np.zeros((nocc[1], nocc[1]), dtype=types[float])
    .zeros 295 [4, 4],
    -- 2212: x414 += einsum("ijab,ikab->jk", t2.bbbb, x89)
    .add 295 (.ein [(31, [0, 1, 2, 3]), (286, [0, 4, 2, 3])] [1, 4]) 1 1,
    -- 2213: x416 += einsum("ij->ij", x414) * -1
    .add 291 (.ein [(295, [0, 1])] [0, 1]) (-1) 1,
    -- 2214: del x414
    .del 295,
    -- 2215: x440 = np.zeros((nocc[0], nocc[1], nvir[0], nvir[1]), dtype=types[float])
    .zeros 296 [0, 4, 1, 5],
    -- 2216: x440 += einsum("ijab,jkbc->ikac", t2.abab, x89)
    .add 296 (.ein [(13, [0, 1, 2, 3]), (286, [1, 4, 3, 5])] [0, 4, 2, 5]) 1 1,
    -- 2217: x441 += einsum("ijab->ijab", x440) * -1
    .add 250 (.ein [(296, [0, 1, 2, 3])] [0, 1, 2, 3]) (-1) 1,
    -- 2218: del x440
    .del 296,
    -- 2219: x471 = np.zeros((nvir[1], nvir[1]), dtype=types[float])
    .zeros 297 [5, 5],
    -- 2220: x471 += einsum("ijab,ijbc->ac", t2.bbbb, x89)
    .add 297 (.ein [(31, [0, 1, 2, 3]), (286, [0, 1, 3, 4])] [2, 4]) 1 1,
    -- 2221: x472 = np.zeros((nvir[1], nvir[1]), dtype=types[float])
    .zeros 298 [5, 5],
    -- 2222: x472 += einsum("ab->ab", x471) * -1
    .add 298 (.ein [(297, [0, 1])] [0, 1]) (-1) 1,
    -- 2223: x525 += einsum("ab->ab", x471) * -1
    .add 292 (.ein [(297, [0, 1])] [0, 1]) (-1) 1,
    -- 2224: del x471
    .del 297,
    -- 2225: x91 += einsum("ia->ia", f.bb.ov)
    .add 278 (.ein [(49, [0, 1])] [0, 1]) 1 1,
    -- 2226: x92 = np.zeros((nocc[0], nvir[0]), dtype=types[float])
    .zeros 299 [0, 1],
    -- 2227: x92 += einsum("ia,jiba->jb", x91, t2.abab)
    .add 299 (.ein [(278, [0, 1]), (13, [2, 0, 3, 1])] [2, 3]) 1 1,
    -- 2228: x116 += einsum("ia->ia", x92)
    .add 141 (.ein [(299, [0, 1])] [0, 1]) 1 1,
    -- 2229: del x92
    .del 299,
    -- 2230: x129 = np.zeros((nocc[1], nvir[1]), dtype=types[float])
    .zeros 300 [4, 5],
    -- 2231: x129 += einsum("ia,ijab->jb", x91, x28)
    .add 300 (.ein [(278, [0, 1]), (168, [0, 2, 1, 3])] [2, 3]) 1 1,
    -- 2232: x154 += einsum("ia->ia", x129) * -1
    .add 170 (.ein [(300, [0, 1])] [0, 1]) (-1) 1,
    -- 2233: del x129
    .del 300,
    -- 2234: x144 = np.zeros((nocc[1], nocc[1]), dtype=types[float])
    .zeros 301 [4, 4],
    -- 2235: x144 += einsum("ia,ja->ij", t1.bb, x91)
    .add 301 (.ein [(8, [0, 1]), (278, [2, 1])] [0, 2]) 1 1,
    -- 2236: x145 = np.zeros((nocc[1], nocc[1]), dtype=types[float])
    .zeros 302 [4, 4],
    -- 2237: x145 += einsum("ij->ji", x144)
    .add 302 (.ein [(301, [0, 1])] [1, 0]) 1 1,
    -- 2238: del x144
    .del 301,
    -- 2239: x214 = np.zeros((nbos), dtype=types[float])
    .zeros 303 [2],
    -- 2240: x214 += einsum("ia,wia->w", x91, u11.bb)
    .add 303 (.ein [(278, [0, 1]), (48, [2, 0, 1])] [2]) 1 1,
    -- 2241: x215 += einsum("w->w", x214)
    .add 194 (.ein [(303, [0])] [0]) 1 1,
    -- 2242: del x214
    .del 303,
    -- 2243: x228 += einsum("ia,jkba->jikb", x91, t2.abab)
    .add 159 (.ein [(278, [0, 1]), (13, [2, 3, 4, 1])] [2, 0, 3, 4]) 1 1,
    -- 2244: x276 = np.zeros((nbos, nocc[1], nocc[1]), dtype=types[float])
    .zeros 304 [2, 4, 4],
    -- 2245: x276 += einsum("ia,wja->wij", x91, u11.bb)
    .add 304 (.ein [(278, [0, 1]), (48, [2, 3, 1])] [2, 0, 3]) 1 1,
    -- 2246: x482 = np.zeros((nocc[0], nocc[1], nvir[0], nvir[1]), dtype=types[float])
    .zeros 305 [0, 4, 1, 5],
    -- 2247: x482 += einsum("ia,jkib->jkba", x91, x0)
    .add 305 (.ein [(278, [0, 1]), (75, [2, 3, 0, 4])] [2, 3, 4, 1]) 1 1,
    -- 2248: l2new_baba += einsum("ijab->baji", x482) * -1
    .add 89 (.ein [(305, [0, 1, 2, 3])] [3, 2, 1, 0]) (-1) 1,
    -- 2249: l2new_abab += einsum("ijab->abij", x482) * -1
    .add 90 (.ein [(305, [0, 1, 2, 3])] [2, 3, 0, 1]) (-1) 1,
    -- 2250: del x482
    .del 305,
    -- 2251: lu11new_bb = np.zeros((nbos, nvir[1], nocc[1]), dtype=types[float])
    .zeros 306 [2, 5, 4],
    -- 2252: lu11new_bb += einsum("w,ia->wai", ls1, x91) * 2
    .add 306 (.ein [(35, [0]), (278, [1, 2])] [0, 2, 1]) 2 1,
    -- 2253: del x91
    .del 278,
    -- 2254: x94 = np.zeros((nbos, nocc[0], nocc[0]), dtype=types[float])
    .zeros 307 [2, 0, 0],
    -- 2255: x94 += einsum("ia,wja->wji", t1.aa, g.aa.bov)
    .add 307 (.ein [(10, [0, 1]), (2, [2, 3, 1])] [2, 3, 0]) 1 1,
    -- 2256: x95 = np.zeros((nbos, nocc[0], nocc[0]), dtype=types[float])
    .zeros 308 [2, 0, 0],
    -- 2257: x95 += einsum("wij->wij", x94)
    .add 308 (.ein [(307, [0, 1, 2])] [0, 1, 2]) 1 1,
    -- 2258: x521 = np.zeros((nbos, nocc[0], nocc[0]), dtype=types[float])
    .zeros 309 [2, 0, 0],
    -- 2259: x521 += einsum("wij->wij", x94)
    .add 309 (.ein [(307, [0, 1, 2])] [0, 1, 2]) 1 1,
    -- 2260: del x94
    .del 307,
    -- 2261: x95 += einsum("wij->wij", g.aa.boo)
    .add 308 (.ein [(0, [0, 1, 2])] [0, 1, 2]) 1 1,
    -- 2262: x96 = np.zeros((nocc[0], nvir[0]), dtype=types[float])
    .zeros 310 [0, 1],
    -- 2263: x96 += einsum("wia,wij->ja", u11.aa, x95)
    .add 310 (.ein [(26, [0, 1, 2]), (308, [0, 1, 3])] [3, 2]) 1 1,
    -- 2264: x116 += einsum("ia->ia", x96) * -1
    .add 141 (.ein [(310, [0, 1])] [0, 1]) (-1) 1,
    -- 2265: del x96
    .del 310,
    -- 2266: x501 = np.zeros((nbos, nocc[0], nvir[0]), dtype=types[float])
    .zeros 311 [2, 0, 1],
    -- 2267: x501 += einsum("ia,wij->wja", t1.aa, x95)
    .add 311 (.ein [(10, [0, 1]), (308, [2, 0, 3])] [2, 3, 1]) 1 1,
    -- 2268: x502 += einsum("wia->wia", x501) * -1
    .add 252 (.ein [(311, [0, 1, 2])] [0, 1, 2]) (-1) 1,
    -- 2269: del x501
    .del 311,
    -- 2270: x97 = np.zeros((nocc[0], nocc[0]), dtype=types[float])
    .zeros 312 [0, 0],
    -- 2271: x97 += einsum("w,wij->ij", s1, g.aa.boo)
    .add 312 (.ein [(18, [0]), (0, [0, 1, 2])] [1, 2]) 1 1,
    -- 2272: x105 += einsum("ij->ij", x97)
    .add 190 (.ein [(312, [0, 1])] [0, 1]) 1 1,
    -- 2273: x316 = np.zeros((nocc[0], nocc[0]), dtype=types[float])
    .zeros 313 [0, 0],
    -- 2274: x316 += einsum("ij->ij", x97)
    .add 313 (.ein [(312, [0, 1])] [0, 1]) 1 1,
    -- 2275: del x97
    .del 312,
    -- 2276: x98 = np.zeros((nocc[0], nocc[0]), dtype=types[float])
    .zeros 314 [0, 0],
    -- 2277: x98 += einsum("wia,wja->ij", g.aa.bov, u11.aa)
    .add 314 (.ein [(2, [0, 1, 2]), (26, [0, 3, 2])] [1, 3]) 1 1,
    -- 2278: x105 += einsum("ij->ij", x98)
    .add 190 (.ein [(314, [0, 1])] [0, 1]) 1 1,
    -- 2279: x316 += einsum("ij->ij", x98)
    .add 313 (.ein [(314, [0, 1])] [0, 1]) 1 1,
    -- 2280: del x98
    .del 314,
    -- 2281: x99 = np.zeros((nocc[0], nocc[0]), dtype=types[float])
    .zeros 315 [0, 0],
    -- 2282: x99 += einsum("ia,jkia->jk", t1.bb, v.aabb.ooov)
    .add 315 (.ein [(8, [0, 1]), (12, [2, 3, 0, 1])] [2, 3]) 1 1,
    -- 2283: x105 += einsum("ij->ij", x99)
    .add 190 (.ein [(315, [0, 1])] [0, 1]) 1 1,
    -- 2284: x319 = np.zeros((nocc[0], nocc[0]), dtype=types[float])
    .zeros 316 [0, 0],
    -- 2285: x319 += einsum("ij->ij", x99)
    .add 316 (.ein [(315, [0, 1])] [0, 1]) 1 1,
    -- 2286: del x99
    .del 315,
    -- 2287: x100 = np.zeros((nocc[0], nocc[0]), dtype=types[float])
    .zeros 317 [0, 0],
    -- 2288: x100 += einsum("ijab,kajb->ik", t2.abab, v.aabb.ovov)
    .add 317 (.ein [(13, [0, 1, 2, 3]), (16, [4, 2, 1, 3])] [0, 4]) 1 1,
    -- 2289: x105 += einsum("ij->ji", x100)
    .add 190 (.ein [(317, [0, 1])] [1, 0]) 1 1,
    -- 2290: x345 += einsum("ij->ij", x100)
    .add 121 (.ein [(317, [0, 1])] [0, 1]) 1 1,
    -- 2291: del x100
    .del 317,
    -- 2292: x346 = np.zeros((nocc[0], nocc[0], nvir[0], nvir[0]), dtype=types[float])
    .zeros 318 [0, 0, 1, 1],
    -- 2293: x346 += einsum("ij,abik->kjab", x345, l2.aaaa)
    .add 318 (.ein [(121, [0, 1]), (25, [2, 3, 0, 4])] [4, 1, 2, 3]) 1 1,
    -- 2294: del x345
    .del 121,
    -- 2295: x355 += einsum("ijab->ijba", x346)
    .add 206 (.ein [(318, [0, 1, 2, 3])] [0, 1, 3, 2]) 1 1,
    -- 2296: del x346
    .del 318,
    -- 2297: x102 = np.zeros((nocc[0], nocc[0], nocc[0], nvir[0]), dtype=types[float])
    .zeros 319 [0, 0, 0, 1],
    -- 2298: x102 += einsum("ijka->ikja", v.aaaa.ooov) * -1
    .add 319 (.ein [(27, [0, 1, 2, 3])] [0, 2, 1, 3]) (-1) 1,
    -- 2299: x102 += einsum("ijka->kija", v.aaaa.ooov)
    .add 319 (.ein [(27, [0, 1, 2, 3])] [2, 0, 1, 3]) 1 1,
    -- 2300: x103 = np.zeros((nocc[0], nocc[0]), dtype=types[float])
    .zeros 320 [0, 0],
    -- 2301: x103 += einsum("ia,jika->jk", t1.aa, x102)
    .add 320 (.ein [(10, [0, 1]), (319, [2, 0, 3, 1])] [2, 3]) 1 1,
    -- 2302: x105 += einsum("ij->ij", x103) * -1
    .add 190 (.ein [(320, [0, 1])] [0, 1]) (-1) 1,
    -- 2303: del x103
    .del 320,
    -- 2304: x196 += einsum("wia,jika->wjk", u11.aa, x102) * -1
    .add 192 (.ein [(26, [0, 1, 2]), (319, [3, 1, 4, 2])] [0, 3, 4]) (-1) 1,
    -- 2305: del x102
    .del 319,
    -- 2306: x105 += einsum("ij->ij", f.aa.oo)
    .add 190 (.ein [(50, [0, 1])] [0, 1]) 1 1,
    -- 2307: x106 = np.zeros((nocc[0], nvir[0]), dtype=types[float])
    .zeros 321 [0, 1],
    -- 2308: x106 += einsum("ia,ij->ja", t1.aa, x105)
    .add 321 (.ein [(10, [0, 1]), (190, [0, 2])] [2, 1]) 1 1,
    -- 2309: x116 += einsum("ia->ia", x106) * -1
    .add 141 (.ein [(321, [0, 1])] [0, 1]) (-1) 1,
    -- 2310: del x106
    .del 321,
    -- 2311: x475 = np.zeros((nocc[0], nocc[1], nvir[0], nvir[1]), dtype=types[float])
    .zeros 322 [0, 4, 1, 5],
    -- 2312: x475 += einsum("ij,abjk->ikab", x105, l2.abab)
    .add 322 (.ein [(190, [0, 1]), (9, [2, 3, 1, 4])] [0, 4, 2, 3]) 1 1,
    -- 2313: l2new_baba += einsum("ijab->baji", x475) * -1
    .add 89 (.ein [(322, [0, 1, 2, 3])] [3, 2, 1, 0]) (-1) 1,
    -- 2314: l2new_abab += einsum("ijab->abij", x475) * -1
    .add 90 (.ein [(322, [0, 1, 2, 3])] [2, 3, 0, 1]) (-1) 1,
    -- 2315: del x475
    .del 322,
    -- 2316: l1new_aa += einsum("ai,ji->aj", l1.aa, x105) * -1
    .add 79 (.ein [(17, [0, 1]), (190, [2, 1])] [0, 2]) (-1) 1,
    -- 2317: lu11new_aa += einsum("ij,waj->wai", x105, lu11.aa) * -1
    .add 195 (.ein [(190, [0, 1]), (41, [2, 3, 1])] [2, 3, 0]) (-1) 1,
    -- 2318: del x105
    .del 190,
    -- 2319: x107 = np.zeros((nvir[0], nvir[0]), dtype=types[float])
    .zeros 323 [1, 1],
    -- 2320: x107 += einsum("w,wab->ab", s1, g.aa.bvv)
    .add 323 (.ein [(18, [0]), (3, [0, 1, 2])] [1, 2]) 1 1,
    -- 2321: x110 += einsum("ab->ab", x107)
    .add 210 (.ein [(323, [0, 1])] [0, 1]) 1 1,
    -- 2322: x309 = np.zeros((nvir[0], nvir[0]), dtype=types[float])
    .zeros 324 [1, 1],
    -- 2323: x309 += einsum("ab->ab", x107)
    .add 324 (.ein [(323, [0, 1])] [0, 1]) 1 1,
    -- 2324: x469 += einsum("ab->ab", x107)
    .add 154 (.ein [(323, [0, 1])] [0, 1]) 1 1,
    -- 2325: x517 += einsum("ab->ab", x107)
    .add 122 (.ein [(323, [0, 1])] [0, 1]) 1 1,
    -- 2326: del x107
    .del 323,
    -- 2327: x108 = np.zeros((nvir[0], nvir[0]), dtype=types[float])
    .zeros 325 [1, 1],
    -- 2328: x108 += einsum("ia,iabc->bc", t1.bb, v.bbaa.ovvv)
    .add 325 (.ein [(8, [0, 1]), (14, [0, 1, 2, 3])] [2, 3]) 1 1,
    -- 2329: x110 += einsum("ab->ab", x108)
    .add 210 (.ein [(325, [0, 1])] [0, 1]) 1 1,
    -- 2330: x312 = np.zeros((nvir[0], nvir[0]), dtype=types[float])
    .zeros 326 [1, 1],
    -- 2331: x312 += einsum("ab->ab", x108)
    .add 326 (.ein [(325, [0, 1])] [0, 1]) 1 1,
    -- 2332: x469 += einsum("ab->ab", x108)
    .add 154 (.ein [(325, [0, 1])] [0, 1]) 1 1,
    -- 2333: x517 += einsum("ab->ab", x108)
    .add 122 (.ein [(325, [0, 1])] [0, 1]) 1 1,
    -- 2334: del x108
    .del 325,
    -- 2335: x110 += einsum("ab->ab", f.aa.vv)
    .add 210 (.ein [(51, [0, 1])] [0, 1]) 1 1,
    -- 2336: x111 = np.zeros((nocc[0], nvir[0]), dtype=types[float])
    .zeros 327 [0, 1],
    -- 2337: x111 += einsum("ia,ba->ib", t1.aa, x110)
    .add 327 (.ein [(10, [0, 1]), (210, [2, 1])] [0, 2]) 1 1,
    -- 2338: x116 += einsum("ia->ia", x111)
    .add 141 (.ein [(327, [0, 1])] [0, 1]) 1 1,
    -- 2339: del x111
    .del 327,
    -- 2340: l1new_aa += einsum("ai,ab->bi", l1.aa, x110)
    .add 79 (.ein [(17, [0, 1]), (210, [0, 2])] [2, 1]) 1 1,
    -- 2341: del x110
    .del 210,
    -- 2342: x112 = np.zeros((nbos), dtype=types[float])
    .zeros 328 [2],
    -- 2343: x112 += einsum("ia,wia->w", t1.aa, g.aa.bov)
    .add 328 (.ein [(10, [0, 1]), (2, [2, 0, 1])] [2]) 1 1,
    -- 2344: x114 = np.zeros((nbos), dtype=types[float])
    .zeros 329 [2],
    -- 2345: x114 += einsum("w->w", x112)
    .add 329 (.ein [(328, [0])] [0]) 1 1,
    -- 2346: del x112
    .del 328,
    -- 2347: x113 = np.zeros((nbos), dtype=types[float])
    .zeros 330 [2],
    -- 2348: x113 += einsum("ia,wia->w", t1.bb, g.bb.bov)
    .add 330 (.ein [(8, [0, 1]), (6, [2, 0, 1])] [2]) 1 1,
    -- 2349: x114 += einsum("w->w", x113)
    .add 329 (.ein [(330, [0])] [0]) 1 1,
    -- 2350: del x113
    .del 330,
    -- 2351: x114 += einsum("w->w", G)
    .add 329 (.ein [(52, [0])] [0]) 1 1,
    -- 2352: x115 = np.zeros((nocc[0], nvir[0]), dtype=types[float])
    .zeros 331 [0, 1],
    -- 2353: x115 += einsum("w,wia->ia", x114, u11.aa)
    .add 331 (.ein [(329, [0]), (26, [0, 1, 2])] [1, 2]) 1 1,
    -- 2354: x116 += einsum("ia->ia", x115)
    .add 141 (.ein [(331, [0, 1])] [0, 1]) 1 1,
    -- 2355: del x115
    .del 331,
    -- 2356: x153 = np.zeros((nocc[1], nvir[1]), dtype=types[float])
    .zeros 332 [4, 5],
    -- 2357: x153 += einsum("w,wia->ia", x114, u11.bb)
    .add 332 (.ein [(329, [0]), (48, [0, 1, 2])] [1, 2]) 1 1,
    -- 2358: del x114
    .del 329,
    -- 2359: x154 += einsum("ia->ia", x153)
    .add 170 (.ein [(332, [0, 1])] [0, 1]) 1 1,
    -- 2360: del x153
    .del 332,
    -- 2361: x116 += einsum("ai->ia", f.aa.vo)
    .add 141 (.ein [(53, [0, 1])] [1, 0]) 1 1,
    -- 2362: l1new_aa += einsum("ia,ijba->bj", x116, x41)
    .add 79 (.ein [(141, [0, 1]), (207, [0, 2, 3, 1])] [3, 2]) 1 1,
    -- 2363: l1new_bb += einsum("ia,abij->bj", x116, l2.abab)
    .add 80 (.ein [(141, [0, 1]), (9, [1, 2, 0, 3])] [2, 3]) 1 1,
    -- 2364: ls1new = np.zeros((nbos), dtype=types[float])
    .zeros 333 [2],
    -- 2365: ls1new += einsum("ia,wai->w", x116, lu11.aa)
    .add 333 (.ein [(141, [0, 1]), (41, [2, 1, 0])] [2]) 1 1,
    -- 2366: del x116
    .del 141,
    -- 2367: x119 = np.zeros((nocc[1], nvir[1]), dtype=types[float])
    .zeros 334 [4, 5],
    -- 2368: x119 += einsum("w,wai->ia", s1, g.bb.bvo)
    .add 334 (.ein [(18, [0]), (5, [0, 1, 2])] [2, 1]) 1 1,
    -- 2369: x154 += einsum("ia->ia", x119)
    .add 170 (.ein [(334, [0, 1])] [0, 1]) 1 1,
    -- 2370: del x119
    .del 334,
    -- 2371: x120 = np.zeros((nocc[1], nvir[1]), dtype=types[float])
    .zeros 335 [4, 5],
    -- 2372: x120 += einsum("wab,wib->ia", g.bb.bvv, u11.bb)
    .add 335 (.ein [(7, [0, 1, 2]), (48, [0, 3, 2])] [3, 1]) 1 1,
    -- 2373: x154 += einsum("ia->ia", x120)
    .add 170 (.ein [(335, [0, 1])] [0, 1]) 1 1,
    -- 2374: del x120
    .del 335,
    -- 2375: x121 = np.zeros((nocc[1], nvir[1]), dtype=types[float])
    .zeros 336 [4, 5],
    -- 2376: x121 += einsum("ia,iabj->jb", t1.aa, v.aabb.ovvo)
    .add 336 (.ein [(10, [0, 1]), (37, [0, 1, 2, 3])] [3, 2]) 1 1,
    -- 2377: x154 += einsum("ia->ia", x121)
    .add 170 (.ein [(336, [0, 1])] [0, 1]) 1 1,
    -- 2378: del x121
    .del 336,
    -- 2379: x122 = np.zeros((nocc[1], nvir[1]), dtype=types[float])
    .zeros 337 [4, 5],
    -- 2380: x122 += einsum("ijab,iacb->jc", t2.abab, v.aabb.ovvv)
    .add 337 (.ein [(13, [0, 1, 2, 3]), (19, [0, 2, 4, 3])] [1, 4]) 1 1,
    -- 2381: x154 += einsum("ia->ia", x122)
    .add 170 (.ein [(337, [0, 1])] [0, 1]) 1 1,
    -- 2382: del x122
    .del 337,
    -- 2383: x123 = np.zeros((nocc[1], nvir[1]), dtype=types[float])
    .zeros 338 [4, 5],
    -- 2384: x123 += einsum("ijab,ikja->kb", t2.bbbb, v.bbbb.ooov)
    .add 338 (.ein [(31, [0, 1, 2, 3]), (54, [0, 4, 1, 2])] [4, 3]) 1 1,
    -- 2385: x154 += einsum("ia->ia", x123)
    .add 170 (.ein [(338, [0, 1])] [0, 1]) 1 1,
    -- 2386: del x123
    .del 338,
    -- 2387: x125 = np.zeros((nocc[1], nocc[1], nocc[1], nvir[1]), dtype=types[float])
    .zeros 339 [4, 4, 4, 5],
    -- 2388: x125 += einsum("ia,jbka->ijkb", t1.bb, v.bbbb.ovov)
    .add 339 (.ein [(8, [0, 1]), (47, [2, 3, 4, 1])] [0, 2, 4, 3]) 1 1,
    -- 2389: x126 = np.zeros((nocc[1], nocc[1], nocc[1], nvir[1]), dtype=types[float])
    .zeros 340 [4, 4, 4, 5],
    -- 2390: x126 += einsum("ijka->jkia", x125) * -1
    .add 340 (.ein [(339, [0, 1, 2, 3])] [1, 2, 0, 3]) (-1) 1,
    -- 2391: x126 += einsum("ijka->kjia", x125)
    .add 340 (.ein [(339, [0, 1, 2, 3])] [2, 1, 0, 3]) 1 1,
    -- 2392: x220 = np.zeros((nocc[1], nocc[1], nocc[1], nvir[1]), dtype=types[float])
    .zeros 341 [4, 4, 4, 5],
    -- 2393: x220 += einsum("ijka->ikja", x125)
    .add 341 (.ein [(339, [0, 1, 2, 3])] [0, 2, 1, 3]) 1 1,
    -- 2394: x220 += einsum("ijka->ijka", x125) * -1
    .add 341 (.ein [(339, [0, 1, 2, 3])] [0, 1, 2, 3]) (-1) 1,
    -- 2395: x225 = np.zeros((nocc[1], nocc[1], nocc[1], nvir[1]), dtype=types[float])
    .zeros 342 [4, 4, 4, 5],
    -- 2396: x225 += einsum("ijka->jkia", x125) * -1
    .add 342 (.ein [(339, [0, 1, 2, 3])] [1, 2, 0, 3]) (-1) 1,
    -- 2397: x225 += einsum("ijka->kjia", x125)
    .add 342 (.ein [(339, [0, 1, 2, 3])] [2, 1, 0, 3]) 1 1,
    -- 2398: x244 = np.zeros((nocc[1], nocc[1], nocc[1], nocc[1]), dtype=types[float])
    .zeros 343 [4, 4, 4, 4],
    -- 2399: x244 += einsum("ia,jkla->ijkl", t1.bb, x125)
    .add 343 (.ein [(8, [0, 1]), (339, [2, 3, 4, 1])] [0, 2, 3, 4]) 1 1,
    -- 2400: x245 = np.zeros((nocc[1], nocc[1], nocc[1], nocc[1]), dtype=types[float])
    .zeros 344 [4, 4, 4, 4],
    -- 2401: x245 += einsum("ijkl->ijkl", x244)
    .add 344 (.ein [(343, [0, 1, 2, 3])] [0, 1, 2, 3]) 1 1,
    -- 2402: x406 = np.zeros((nocc[1], nocc[1], nocc[1], nocc[1]), dtype=types[float])
    .zeros 345 [4, 4, 4, 4],
    -- 2403: x406 += einsum("ijkl->ijkl", x244)
    .add 345 (.ein [(343, [0, 1, 2, 3])] [0, 1, 2, 3]) 1 1,
    -- 2404: del x244
    .del 343,
    -- 2405: x267 = np.zeros((nocc[1], nocc[1], nocc[1], nvir[1]), dtype=types[float])
    .zeros 346 [4, 4, 4, 5],
    -- 2406: x267 += einsum("ijka->jkia", x125)
    .add 346 (.ein [(339, [0, 1, 2, 3])] [1, 2, 0, 3]) 1 1,
    -- 2407: x399 = np.zeros((nocc[1], nocc[1], nocc[1], nvir[1]), dtype=types[float])
    .zeros 347 [4, 4, 4, 5],
    -- 2408: x399 += einsum("ijka->ijka", x125)
    .add 347 (.ein [(339, [0, 1, 2, 3])] [0, 1, 2, 3]) 1 1,
    -- 2409: x410 = np.zeros((nocc[1], nocc[1], nocc[1], nvir[1]), dtype=types[float])
    .zeros 348 [4, 4, 4, 5],
    -- 2410: x410 += einsum("ijka->ikja", x125) * -1
    .add 348 (.ein [(339, [0, 1, 2, 3])] [0, 2, 1, 3]) (-1) 1,
    -- 2411: x410 += einsum("ijka->ijka", x125)
    .add 348 (.ein [(339, [0, 1, 2, 3])] [0, 1, 2, 3]) 1 1,
    -- 2412: del x125
    .del 339,
    -- 2413: x463 = np.zeros((nocc[0], nocc[1], nvir[0], nvir[1]), dtype=types[float])
    .zeros 349 [0, 4, 1, 5],
    -- 2414: x463 += einsum("ijka,jlkb->ilab", x0, x410)
    .add 349 (.ein [(75, [0, 1, 2, 3]), (348, [1, 4, 2, 5])] [0, 4, 3, 5]) 1 1,
    -- 2415: l2new_baba += einsum("ijab->baji", x463) * -1
    .add 89 (.ein [(349, [0, 1, 2, 3])] [3, 2, 1, 0]) (-1) 1,
    -- 2416: l2new_abab += einsum("ijab->abij", x463) * -1
    .add 90 (.ein [(349, [0, 1, 2, 3])] [2, 3, 0, 1]) (-1) 1,
    -- 2417: del x463
    .del 349,
    -- 2418: x126 += einsum("ijka->ikja", v.bbbb.ooov)
    .add 340 (.ein [(54, [0, 1, 2, 3])] [0, 2, 1, 3]) 1 1,
    -- 2419: x127 = np.zeros((nocc[1], nvir[1]), dtype=types[float])
    .zeros 350 [4, 5],
    -- 2420: x127 += einsum("ijab,jika->kb", t2.bbbb, x126)
    .add 350 (.ein [(31, [0, 1, 2, 3]), (340, [1, 0, 4, 2])] [4, 3]) 1 1,
    -- 2421: del x126
    .del 340,
    -- 2422: x154 += einsum("ia->ia", x127) * -1
    .add 170 (.ein [(350, [0, 1])] [0, 1]) (-1) 1,
    -- 2423: del x127
    .del 350,
    -- 2424: x131 = np.zeros((nocc[1], nocc[1], nvir[1], nvir[1]), dtype=types[float])
    .zeros 351 [4, 4, 5, 5],
    -- 2425: x131 += einsum("iabj->ijba", v.bbbb.ovvo)
    .add 351 (.ein [(55, [0, 1, 2, 3])] [0, 3, 2, 1]) 1 1,
    -- 2426: x131 += einsum("ijab->ijab", v.bbbb.oovv) * -1
    .add 351 (.ein [(56, [0, 1, 2, 3])] [0, 1, 2, 3]) (-1) 1,
    -- 2427: x132 = np.zeros((nocc[1], nvir[1]), dtype=types[float])
    .zeros 352 [4, 5],
    -- 2428: x132 += einsum("ia,ijba->jb", t1.bb, x131)
    .add 352 (.ein [(8, [0, 1]), (351, [0, 2, 3, 1])] [2, 3]) 1 1,
    -- 2429: x154 += einsum("ia->ia", x132)
    .add 170 (.ein [(352, [0, 1])] [0, 1]) 1 1,
    -- 2430: del x132
    .del 352,
    -- 2431: x223 += einsum("ia,jkba->ijkb", t1.bb, x131)
    .add 186 (.ein [(8, [0, 1]), (351, [2, 3, 4, 1])] [0, 2, 3, 4]) 1 1,
    -- 2432: x133 = np.zeros((nbos, nocc[1], nocc[1]), dtype=types[float])
    .zeros 353 [2, 4, 4],
    -- 2433: x133 += einsum("ia,wja->wji", t1.bb, g.bb.bov)
    .add 353 (.ein [(8, [0, 1]), (6, [2, 3, 1])] [2, 3, 0]) 1 1,
    -- 2434: x134 = np.zeros((nbos, nocc[1], nocc[1]), dtype=types[float])
    .zeros 354 [2, 4, 4],
    -- 2435: x134 += einsum("wij->wij", x133)
    .add 354 (.ein [(353, [0, 1, 2])] [0, 1, 2]) 1 1,
    -- 2436: x526 = np.zeros((nbos, nocc[1], nocc[1]), dtype=types[float])
    .zeros 355 [2, 4, 4],
    -- 2437: x526 += einsum("wij->wij", x133)
    .add 355 (.ein [(353, [0, 1, 2])] [0, 1, 2]) 1 1,
    -- 2438: del x133
    .del 353,
    -- 2439: x134 += einsum("wij->wij", g.bb.boo)
    .add 354 (.ein [(4, [0, 1, 2])] [0, 1, 2]) 1 1,
    -- 2440: x135 = np.zeros((nocc[1], nvir[1]), dtype=types[float])
    .zeros 356 [4, 5],
    -- 2441: x135 += einsum("wia,wij->ja", u11.bb, x134)
    .add 356 (.ein [(48, [0, 1, 2]), (354, [0, 1, 3])] [3, 2]) 1 1,
    -- 2442: x154 += einsum("ia->ia", x135) * -1
    .add 170 (.ein [(356, [0, 1])] [0, 1]) (-1) 1,
    -- 2443: del x135
    .del 356,
    -- 2444: x510 = np.zeros((nbos, nocc[1], nvir[1]), dtype=types[float])
    .zeros 357 [2, 4, 5],
    -- 2445: x510 += einsum("ia,wij->wja", t1.bb, x134)
    .add 357 (.ein [(8, [0, 1]), (354, [2, 0, 3])] [2, 3, 1]) 1 1,
    -- 2446: x511 += einsum("wia->wia", x510) * -1
    .add 177 (.ein [(357, [0, 1, 2])] [0, 1, 2]) (-1) 1,
    -- 2447: del x510
    .del 357,
    -- 2448: x136 = np.zeros((nocc[1], nocc[1]), dtype=types[float])
    .zeros 358 [4, 4],
    -- 2449: x136 += einsum("w,wij->ij", s1, g.bb.boo)
    .add 358 (.ein [(18, [0]), (4, [0, 1, 2])] [1, 2]) 1 1,
    -- 2450: x145 += einsum("ij->ij", x136)
    .add 302 (.ein [(358, [0, 1])] [0, 1]) 1 1,
    -- 2451: x386 = np.zeros((nocc[1], nocc[1]), dtype=types[float])
    .zeros 359 [4, 4],
    -- 2452: x386 += einsum("ij->ij", x136)
    .add 359 (.ein [(358, [0, 1])] [0, 1]) 1 1,
    -- 2453: del x136
    .del 358,
    -- 2454: x137 = np.zeros((nocc[1], nocc[1]), dtype=types[float])
    .zeros 360 [4, 4],
    -- 2455: x137 += einsum("wia,wja->ij", g.bb.bov, u11.bb)
    .add 360 (.ein [(6, [0, 1, 2]), (48, [0, 3, 2])] [1, 3]) 1 1,
    -- 2456: x145 += einsum("ij->ij", x137)
    .add 302 (.ein [(360, [0, 1])] [0, 1]) 1 1,
    -- 2457: x386 += einsum("ij->ij", x137)
    .add 359 (.ein [(360, [0, 1])] [0, 1]) 1 1,
    -- 2458: del x137
    .del 360,
    -- 2459: x138 = np.zeros((nocc[1], nocc[1]), dtype=types[float])
    .zeros 361 [4, 4],
    -- 2460: x138 += einsum("ia,iajk->jk", t1.aa, v.aabb.ovoo)
    .add 361 (.ein [(10, [0, 1]), (11, [0, 1, 2, 3])] [2, 3]) 1 1,
    -- 2461: x145 += einsum("ij->ij", x138)
    .add 302 (.ein [(361, [0, 1])] [0, 1]) 1 1,
    -- 2462: x389 = np.zeros((nocc[1], nocc[1]), dtype=types[float])
    .zeros 362 [4, 4],
    -- 2463: x389 += einsum("ij->ij", x138)
    .add 362 (.ein [(361, [0, 1])] [0, 1]) 1 1,
    -- 2464: del x138
    .del 361,
    -- 2465: x139 = np.zeros((nocc[1], nocc[1]), dtype=types[float])
    .zeros 363 [4, 4],
    -- 2466: x139 += einsum("ijab,iakb->jk", t2.abab, v.aabb.ovov)
    .add 363 (.ein [(13, [0, 1, 2, 3]), (16, [0, 2, 4, 3])] [1, 4]) 1 1,
    -- 2467: x145 += einsum("ij->ji", x139)
    .add 302 (.ein [(363, [0, 1])] [1, 0]) 1 1,
    -- 2468: x416 += einsum("ij->ij", x139)
    .add 291 (.ein [(363, [0, 1])] [0, 1]) 1 1,
    -- 2469: del x139
    .del 363,
    -- 2470: x417 = np.zeros((nocc[1], nocc[1], nvir[1], nvir[1]), dtype=types[float])
    .zeros 364 [4, 4, 5, 5],
    -- 2471: x417 += einsum("ij,abik->kjab", x416, l2.bbbb)
    .add 364 (.ein [(291, [0, 1]), (33, [2, 3, 0, 4])] [4, 1, 2, 3]) 1 1,
    -- 2472: del x416
    .del 291,
    -- 2473: x426 = np.zeros((nocc[1], nocc[1], nvir[1], nvir[1]), dtype=types[float])
    .zeros 365 [4, 4, 5, 5],
    -- 2474: x426 += einsum("ijab->ijba", x417)
    .add 365 (.ein [(364, [0, 1, 2, 3])] [0, 1, 3, 2]) 1 1,
    -- 2475: del x417
    .del 364,
    -- 2476: x140 = np.zeros((nocc[1], nocc[1], nvir[1], nvir[1]), dtype=types[float])
    .zeros 366 [4, 4, 5, 5],
    -- 2477: x140 += einsum("iajb->jiab", v.bbbb.ovov) * -1
    .add 366 (.ein [(47, [0, 1, 2, 3])] [2, 0, 1, 3]) (-1) 1,
    -- 2478: x140 += einsum("iajb->jiba", v.bbbb.ovov)
    .add 366 (.ein [(47, [0, 1, 2, 3])] [2, 0, 3, 1]) 1 1,
    -- 2479: x141 = np.zeros((nocc[1], nocc[1]), dtype=types[float])
    .zeros 367 [4, 4],
    -- 2480: x141 += einsum("ijab,ikba->jk", t2.bbbb, x140)
    .add 367 (.ein [(31, [0, 1, 2, 3]), (366, [0, 4, 3, 2])] [1, 4]) 1 1,
    -- 2481: x145 += einsum("ij->ji", x141) * -1
    .add 302 (.ein [(367, [0, 1])] [1, 0]) (-1) 1,
    -- 2482: del x141
    .del 367,
    -- 2483: x419 = np.zeros((nvir[1], nvir[1]), dtype=types[float])
    .zeros 368 [5, 5],
    -- 2484: x419 += einsum("ijab,ijbc->ac", t2.bbbb, x140)
    .add 368 (.ein [(31, [0, 1, 2, 3]), (366, [0, 1, 3, 4])] [2, 4]) 1 1,
    -- 2485: x420 = np.zeros((nvir[1], nvir[1]), dtype=types[float])
    .zeros 369 [5, 5],
    -- 2486: x420 += einsum("ab->ab", x419) * -1
    .add 369 (.ein [(368, [0, 1])] [0, 1]) (-1) 1,
    -- 2487: del x419
    .del 368,
    -- 2488: x443 = np.zeros((nocc[1], nocc[1], nvir[1], nvir[1]), dtype=types[float])
    .zeros 370 [4, 4, 5, 5],
    -- 2489: x443 += einsum("ijab,ikcb->kjca", x140, x51)
    .add 370 (.ein [(366, [0, 1, 2, 3]), (215, [0, 4, 5, 3])] [4, 1, 5, 2]) 1 1,
    -- 2490: del x140
    .del 366,
    -- 2491: x445 = np.zeros((nocc[1], nocc[1], nvir[1], nvir[1]), dtype=types[float])
    .zeros 371 [4, 4, 5, 5],
    -- 2492: x445 += einsum("ijab->jiab", x443)
    .add 371 (.ein [(370, [0, 1, 2, 3])] [1, 0, 2, 3]) 1 1,
    -- 2493: del x443
    .del 370,
    -- 2494: x142 = np.zeros((nocc[1], nocc[1], nocc[1], nvir[1]), dtype=types[float])
    .zeros 372 [4, 4, 4, 5],
    -- 2495: x142 += einsum("ijka->ikja", v.bbbb.ooov)
    .add 372 (.ein [(54, [0, 1, 2, 3])] [0, 2, 1, 3]) 1 1,
    -- 2496: x142 += einsum("ijka->kija", v.bbbb.ooov) * -1
    .add 372 (.ein [(54, [0, 1, 2, 3])] [2, 0, 1, 3]) (-1) 1,
    -- 2497: x143 = np.zeros((nocc[1], nocc[1]), dtype=types[float])
    .zeros 373 [4, 4],
    -- 2498: x143 += einsum("ia,ijka->jk", t1.bb, x142)
    .add 373 (.ein [(8, [0, 1]), (372, [0, 2, 3, 1])] [2, 3]) 1 1,
    -- 2499: x145 += einsum("ij->ij", x143) * -1
    .add 302 (.ein [(373, [0, 1])] [0, 1]) (-1) 1,
    -- 2500: del x143
    .del 373,
    -- 2501: x276 += einsum("wia,ijka->wjk", u11.bb, x142) * -1
    .add 304 (.ein [(48, [0, 1, 2]), (372, [1, 3, 4, 2])] [0, 3, 4]) (-1) 1,
    -- 2502: x145 += einsum("ij->ij", f.bb.oo)
    .add 302 (.ein [(57, [0, 1])] [0, 1]) 1 1,
    -- 2503: x146 = np.zeros((nocc[1], nvir[1]), dtype=types[float])
    .zeros 374 [4, 5],
    -- 2504: x146 += einsum("ia,ij->ja", t1.bb, x145)
    .add 374 (.ein [(8, [0, 1]), (302, [0, 2])] [2, 1]) 1 1,
    -- 2505: x154 += einsum("ia->ia", x146) * -1
    .add 170 (.ein [(374, [0, 1])] [0, 1]) (-1) 1,
    -- 2506: del x146
    .del 374,
    -- 2507: x474 = np.zeros((nocc[0], nocc[1], nvir[0], nvir[1]), dtype=types[float])
    .zeros 375 [0, 4, 1, 5],
    -- 2508: x474 += einsum("ij,abkj->kiab", x145, l2.abab)
    .add 375 (.ein [(302, [0, 1]), (9, [2, 3, 4, 1])] [4, 0, 2, 3]) 1 1,
    -- 2509: l2new_baba += einsum("ijab->baji", x474) * -1
    .add 89 (.ein [(375, [0, 1, 2, 3])] [3, 2, 1, 0]) (-1) 1,
    -- 2510: l2new_abab += einsum("ijab->abij", x474) * -1
    .add 90 (.ein [(375, [0, 1, 2, 3])] [2, 3, 0, 1]) (-1) 1,
    -- 2511: del x474
    .del 375,
    -- 2512: l1new_bb += einsum("ai,ji->aj", l1.bb, x145) * -1
    .add 80 (.ein [(40, [0, 1]), (302, [2, 1])] [0, 2]) (-1) 1,
    -- 2513: lu11new_bb += einsum("ij,waj->wai", x145, lu11.bb) * -1
    .add 306 (.ein [(302, [0, 1]), (34, [2, 3, 1])] [2, 3, 0]) (-1) 1,
    -- 2514: del x145
    .del 302,
    -- 2515: x147 = np.zeros((nvir[1], nvir[1]), dtype=types[float])
    .zeros 376 [5, 5],
    -- 2516: x147 += einsum("w,wab->ab", s1, g.bb.bvv)
    .add 376 (.ein [(18, [0]), (7, [0, 1, 2])] [1, 2]) 1 1,
    -- 2517: x151 = np.zeros((nvir[1], nvir[1]), dtype=types[float])
    .zeros 377 [5, 5],
    -- 2518: x151 += einsum("ab->ab", x147)
    .add 377 (.ein [(376, [0, 1])] [0, 1]) 1 1,
    -- 2519: x379 = np.zeros((nvir[1], nvir[1]), dtype=types[float])
    .zeros 378 [5, 5],
    -- 2520: x379 += einsum("ab->ab", x147)
    .add 378 (.ein [(376, [0, 1])] [0, 1]) 1 1,
    -- 2521: x472 += einsum("ab->ab", x147)
    .add 298 (.ein [(376, [0, 1])] [0, 1]) 1 1,
    -- 2522: x525 += einsum("ab->ab", x147)
    .add 292 (.ein [(376, [0, 1])] [0, 1]) 1 1,
    -- 2523: del x147
    .del 376,
    -- 2524: x148 = np.zeros((nvir[1], nvir[1]), dtype=types[float])
    .zeros 379 [5, 5],
    -- 2525: x148 += einsum("ia,iabc->bc", t1.aa, v.aabb.ovvv)
    .add 379 (.ein [(10, [0, 1]), (19, [0, 1, 2, 3])] [2, 3]) 1 1,
    -- 2526: x151 += einsum("ab->ab", x148)
    .add 377 (.ein [(379, [0, 1])] [0, 1]) 1 1,
    -- 2527: x382 = np.zeros((nvir[1], nvir[1]), dtype=types[float])
    .zeros 380 [5, 5],
    -- 2528: x382 += einsum("ab->ab", x148)
    .add 380 (.ein [(379, [0, 1])] [0, 1]) 1 1,
    -- 2529: x472 += einsum("ab->ab", x148)
    .add 298 (.ein [(379, [0, 1])] [0, 1]) 1 1,
    -- 2530: x525 += einsum("ab->ab", x148)
    .add 292 (.ein [(379, [0, 1])] [0, 1]) 1 1,
    -- 2531: del x148
    .del 379,
    -- 2532: x149 = np.zeros((nocc[1], nvir[1], nvir[1], nvir[1]), dtype=types[float])
    .zeros 381 [4, 5, 5, 5],
    -- 2533: x149 += einsum("iabc->ibac", v.bbbb.ovvv) * -1
    .add 381 (.ein [(32, [0, 1, 2, 3])] [0, 2, 1, 3]) (-1) 1,
    -- 2534: x149 += einsum("iabc->ibca", v.bbbb.ovvv)
    .add 381 (.ein [(32, [0, 1, 2, 3])] [0, 2, 3, 1]) 1 1,
    -- 2535: x150 = np.zeros((nvir[1], nvir[1]), dtype=types[float])
    .zeros 382 [5, 5],
    -- 2536: x150 += einsum("ia,ibac->bc", t1.bb, x149)
    .add 382 (.ein [(8, [0, 1]), (381, [0, 2, 1, 3])] [2, 3]) 1 1,
    -- 2537: x151 += einsum("ab->ab", x150) * -1
    .add 377 (.ein [(382, [0, 1])] [0, 1]) (-1) 1,
    -- 2538: x472 += einsum("ab->ab", x150) * -1
    .add 298 (.ein [(382, [0, 1])] [0, 1]) (-1) 1,
    -- 2539: x525 += einsum("ab->ab", x150) * -1
    .add 292 (.ein [(382, [0, 1])] [0, 1]) (-1) 1,
    -- 2540: del x150
    .del 382,
    -- 2541: x444 = np.zeros((nocc[1], nocc[1], nvir[1], nvir[1]), dtype=types[float])
    .zeros 383 [4, 4, 5, 5],
    -- 2542: x444 += einsum("ia,jbca->ijbc", t1.bb, x149)
    .add 383 (.ein [(8, [0, 1]), (381, [2, 3, 4, 1])] [0, 2, 3, 4]) 1 1,
    -- 2543: x445 += einsum("ijab->jiab", x444) * -1
    .add 371 (.ein [(383, [0, 1, 2, 3])] [1, 0, 2, 3]) (-1) 1,
    -- 2544: del x444
    .del 383,
    -- 2545: x151 += einsum("ab->ab", f.bb.vv)
    .add 377 (.ein [(58, [0, 1])] [0, 1]) 1 1,
    -- 2546: x152 = np.zeros((nocc[1], nvir[1]), dtype=types[float])
    .zeros 384 [4, 5],
    -- 2547: x152 += einsum("ia,ba->ib", t1.bb, x151)
    .add 384 (.ein [(8, [0, 1]), (377, [2, 1])] [0, 2]) 1 1,
    -- 2548: x154 += einsum("ia->ia", x152)
    .add 170 (.ein [(384, [0, 1])] [0, 1]) 1 1,
    -- 2549: del x152
    .del 384,
    -- 2550: l1new_bb += einsum("ai,ab->bi", l1.bb, x151)
    .add 80 (.ein [(40, [0, 1]), (377, [0, 2])] [2, 1]) 1 1,
    -- 2551: del x151
    .del 377,
    -- 2552: x154 += einsum("ai->ia", f.bb.vo)
    .add 170 (.ein [(59, [0, 1])] [1, 0]) 1 1,
    -- 2553: l1new_aa += einsum("ia,baji->bj", x154, l2.abab)
    .add 79 (.ein [(170, [0, 1]), (9, [2, 1, 3, 0])] [2, 3]) 1 1,
    -- 2554: ls1new += einsum("ia,wai->w", x154, lu11.bb)
    .add 333 (.ein [(170, [0, 1]), (34, [2, 1, 0])] [2]) 1 1,
    -- 2555: x155 = np.zeros((nocc[0], nvir[0]), dtype=types[float])
    .zeros 385 [0, 1],
    -- 2556: x155 += einsum("w,wia->ia", ls1, u11.aa)
    .add 385 (.ein [(35, [0]), (26, [0, 1, 2])] [1, 2]) 1 1,
    -- 2557: x165 += einsum("ia->ia", x155) * -1
    .add 143 (.ein [(385, [0, 1])] [0, 1]) (-1) 1,
    -- 2558: del x155
    .del 385,
    -- 2559: x156 = np.zeros((nocc[0], nvir[0]), dtype=types[float])
    .zeros 386 [0, 1],
    -- 2560: x156 += einsum("ai,jiba->jb", l1.bb, t2.abab)
    .add 386 (.ein [(40, [0, 1]), (13, [2, 1, 3, 0])] [2, 3]) 1 1,
    -- 2561: x165 += einsum("ia->ia", x156) * -1
    .add 143 (.ein [(386, [0, 1])] [0, 1]) (-1) 1,
    -- 2562: del x156
    .del 386,
    -- 2563: x157 = np.zeros((nbos, nocc[0], nocc[0]), dtype=types[float])
    .zeros 387 [2, 0, 0],
    -- 2564: x157 += einsum("ia,waj->wji", t1.aa, lu11.aa)
    .add 387 (.ein [(10, [0, 1]), (41, [2, 1, 3])] [2, 3, 0]) 1 1,
    -- 2565: x158 = np.zeros((nocc[0], nvir[0]), dtype=types[float])
    .zeros 388 [0, 1],
    -- 2566: x158 += einsum("wia,wij->ja", u11.aa, x157)
    .add 388 (.ein [(26, [0, 1, 2]), (387, [0, 1, 3])] [3, 2]) 1 1,
    -- 2567: x165 += einsum("ia->ia", x158)
    .add 143 (.ein [(388, [0, 1])] [0, 1]) 1 1,
    -- 2568: del x158
    .del 388,
    -- 2569: x503 = np.zeros((nbos, nocc[0], nvir[0]), dtype=types[float])
    .zeros 389 [2, 0, 1],
    -- 2570: x503 += einsum("ia,wij->wja", t1.aa, x157)
    .add 389 (.ein [(10, [0, 1]), (387, [2, 0, 3])] [2, 3, 1]) 1 1,
    -- 2571: x506 += einsum("wia->wia", x503) * -1
    .add 254 (.ein [(389, [0, 1, 2])] [0, 1, 2]) (-1) 1,
    -- 2572: del x503
    .del 389,
    -- 2573: lu11new_bb -= einsum("wij,jika->wak", x157, v.aabb.ooov)
    .add 306 (.ein [(387, [0, 1, 2]), (12, [2, 1, 3, 4])] [0, 4, 3]) (-1) 1,
    -- 2574: x162 = np.zeros((nocc[0], nocc[0]), dtype=types[float])
    .zeros 390 [0, 0],
    -- 2575: x162 += einsum("wai,wja->ij", lu11.aa, u11.aa)
    .add 390 (.ein [(41, [0, 1, 2]), (26, [0, 3, 1])] [2, 3]) 1 1,
    -- 2576: x163 += einsum("ij->ij", x162)
    .add 95 (.ein [(390, [0, 1])] [0, 1]) 1 1,
    -- 2577: x164 = np.zeros((nocc[0], nvir[0]), dtype=types[float])
    .zeros 391 [0, 1],
    -- 2578: x164 += einsum("ia,ij->ja", t1.aa, x163)
    .add 391 (.ein [(10, [0, 1]), (95, [0, 2])] [2, 1]) 1 1,
    -- 2579: x165 += einsum("ia->ia", x164)
    .add 143 (.ein [(391, [0, 1])] [0, 1]) 1 1,
    -- 2580: del x164
    .del 391,
    -- 2581: x481 = np.zeros((nocc[0], nocc[1], nvir[0], nvir[1]), dtype=types[float])
    .zeros 392 [0, 4, 1, 5],
    -- 2582: x481 += einsum("ij,jakb->ikab", x163, v.aabb.ovov)
    .add 392 (.ein [(95, [0, 1]), (16, [1, 2, 3, 4])] [0, 3, 2, 4]) 1 1,
    -- 2583: l2new_baba += einsum("ijab->baji", x481) * -1
    .add 89 (.ein [(392, [0, 1, 2, 3])] [3, 2, 1, 0]) (-1) 1,
    -- 2584: l2new_abab += einsum("ijab->abij", x481) * -1
    .add 90 (.ein [(392, [0, 1, 2, 3])] [2, 3, 0, 1]) (-1) 1,
    -- 2585: del x481
    .del 392,
    -- 2586: l1new_bb += einsum("ij,jika->ak", x163, v.aabb.ooov) * -1
    .add 80 (.ein [(95, [0, 1]), (12, [1, 0, 2, 3])] [3, 2]) (-1) 1,
    -- 2587: ls1new += einsum("ij,wji->w", x163, g.aa.boo) * -1
    .add 333 (.ein [(95, [0, 1]), (0, [2, 1, 0])] [2]) (-1) 1,
    -- 2588: lu11new_aa += einsum("ij,wja->wai", x163, g.aa.bov) * -1
    .add 195 (.ein [(95, [0, 1]), (2, [2, 1, 3])] [2, 3, 0]) (-1) 1,
    -- 2589: x205 += einsum("ij->ij", x162)
    .add 246 (.ein [(390, [0, 1])] [0, 1]) 1 1,
    -- 2590: x206 = np.zeros((nbos, nocc[0], nocc[0]), dtype=types[float])
    .zeros 393 [2, 0, 0],
    -- 2591: x206 += einsum("w,ij->wij", s1, x205)
    .add 393 (.ein [(18, [0]), (246, [1, 2])] [0, 1, 2]) 1 1,
    -- 2592: del x205
    .del 246,
    -- 2593: x208 += einsum("ij->ij", x162)
    .add 96 (.ein [(390, [0, 1])] [0, 1]) 1 1,
    -- 2594: x326 += einsum("ij->ij", x162)
    .add 97 (.ein [(390, [0, 1])] [0, 1]) 1 1,
    -- 2595: del x162
    .del 390,
    -- 2596: x327 = np.zeros((nocc[0], nocc[0], nvir[0], nvir[0]), dtype=types[float])
    .zeros 394 [0, 0, 1, 1],
    -- 2597: x327 += einsum("ij,jakb->ikab", x326, v.aaaa.ovov)
    .add 394 (.ein [(97, [0, 1]), (24, [1, 2, 3, 4])] [0, 3, 2, 4]) 1 1,
    -- 2598: del x326
    .del 97,
    -- 2599: x333 += einsum("ijab->ijba", x327)
    .add 87 (.ein [(394, [0, 1, 2, 3])] [0, 1, 3, 2]) 1 1,
    -- 2600: del x327
    .del 394,
    -- 2601: x165 += einsum("ia->ia", t1.aa) * -1
    .add 143 (.ein [(10, [0, 1])] [0, 1]) (-1) 1,
    -- 2602: l1new_aa += einsum("ia,ijba->bj", x165, x61) * -1
    .add 79 (.ein [(143, [0, 1]), (257, [0, 2, 3, 1])] [3, 2]) (-1) 1,
    -- 2603: del x61
    .del 257,
    -- 2604: l1new_bb += einsum("ia,iajb->bj", x165, v.aabb.ovov) * -1
    .add 80 (.ein [(143, [0, 1]), (16, [0, 1, 2, 3])] [3, 2]) (-1) 1,
    -- 2605: ls1new += einsum("ia,wia->w", x165, g.aa.bov) * -1
    .add 333 (.ein [(143, [0, 1]), (2, [2, 0, 1])] [2]) (-1) 1,
    -- 2606: del x165
    .del 143,
    -- 2607: x166 = np.zeros((nvir[0], nvir[0]), dtype=types[float])
    .zeros 395 [1, 1],
    -- 2608: x166 += einsum("ai,ib->ab", l1.aa, t1.aa)
    .add 395 (.ein [(17, [0, 1]), (10, [1, 2])] [0, 2]) 1 1,
    -- 2609: x170 += einsum("ab->ab", x166)
    .add 145 (.ein [(395, [0, 1])] [0, 1]) 1 1,
    -- 2610: del x166
    .del 395,
    -- 2611: x167 = np.zeros((nvir[0], nvir[0]), dtype=types[float])
    .zeros 396 [1, 1],
    -- 2612: x167 += einsum("wai,wib->ab", lu11.aa, u11.aa)
    .add 396 (.ein [(41, [0, 1, 2]), (26, [0, 2, 3])] [1, 3]) 1 1,
    -- 2613: x170 += einsum("ab->ab", x167)
    .add 145 (.ein [(396, [0, 1])] [0, 1]) 1 1,
    -- 2614: x292 = np.zeros((nocc[0], nocc[0], nvir[0], nvir[0]), dtype=types[float])
    .zeros 397 [0, 0, 1, 1],
    -- 2615: x292 += einsum("ab,icjb->ijac", x167, v.aaaa.ovov)
    .add 397 (.ein [(396, [0, 1]), (24, [2, 3, 4, 1])] [2, 4, 0, 3]) 1 1,
    -- 2616: x333 += einsum("ijab->ijab", x292)
    .add 87 (.ein [(397, [0, 1, 2, 3])] [0, 1, 2, 3]) 1 1,
    -- 2617: del x292
    .del 397,
    -- 2618: x476 += einsum("ab->ab", x167)
    .add 147 (.ein [(396, [0, 1])] [0, 1]) 1 1,
    -- 2619: del x167
    .del 396,
    -- 2620: x168 = np.zeros((nvir[0], nvir[0]), dtype=types[float])
    .zeros 398 [1, 1],
    -- 2621: x168 += einsum("abij,ijcb->ac", l2.abab, t2.abab)
    .add 398 (.ein [(9, [0, 1, 2, 3]), (13, [2, 3, 4, 1])] [0, 4]) 1 1,
    -- 2622: x170 += einsum("ab->ab", x168)
    .add 145 (.ein [(398, [0, 1])] [0, 1]) 1 1,
    -- 2623: l1new_bb += einsum("ab,icab->ci", x170, v.bbaa.ovvv)
    .add 80 (.ein [(145, [0, 1]), (14, [2, 3, 0, 1])] [3, 2]) 1 1,
    -- 2624: ls1new += einsum("ab,wab->w", x170, g.aa.bvv)
    .add 333 (.ein [(145, [0, 1]), (3, [2, 0, 1])] [2]) 1 1,
    -- 2625: x347 += einsum("ab->ab", x168)
    .add 146 (.ein [(398, [0, 1])] [0, 1]) 1 1,
    -- 2626: x348 = np.zeros((nocc[0], nocc[0], nvir[0], nvir[0]), dtype=types[float])
    .zeros 399 [0, 0, 1, 1],
    -- 2627: x348 += einsum("ab,ibjc->ijac", x347, v.aaaa.ovov)
    .add 399 (.ein [(146, [0, 1]), (24, [2, 1, 3, 4])] [2, 3, 0, 4]) 1 1,
    -- 2628: del x347
    .del 146,
    -- 2629: x355 += einsum("ijab->jiab", x348) * -1
    .add 206 (.ein [(399, [0, 1, 2, 3])] [1, 0, 2, 3]) (-1) 1,
    -- 2630: del x348
    .del 399,
    -- 2631: x476 += einsum("ab->ab", x168)
    .add 147 (.ein [(398, [0, 1])] [0, 1]) 1 1,
    -- 2632: del x168
    .del 398,
    -- 2633: x477 = np.zeros((nocc[0], nocc[1], nvir[0], nvir[1]), dtype=types[float])
    .zeros 400 [0, 4, 1, 5],
    -- 2634: x477 += einsum("ab,ibjc->ijac", x476, v.aabb.ovov)
    .add 400 (.ein [(147, [0, 1]), (16, [2, 1, 3, 4])] [2, 3, 0, 4]) 1 1,
    -- 2635: l2new_baba += einsum("ijab->baji", x477) * -1
    .add 89 (.ein [(400, [0, 1, 2, 3])] [3, 2, 1, 0]) (-1) 1,
    -- 2636: l2new_abab += einsum("ijab->abij", x477) * -1
    .add 90 (.ein [(400, [0, 1, 2, 3])] [2, 3, 0, 1]) (-1) 1,
    -- 2637: del x477
    .del 400,
    -- 2638: lu11new_aa += einsum("ab,wib->wai", x476, g.aa.bov) * -1
    .add 195 (.ein [(147, [0, 1]), (2, [2, 3, 1])] [2, 0, 3]) (-1) 1,
    -- 2639: del x476
    .del 147,
    -- 2640: x171 = np.zeros((nocc[0], nvir[0], nvir[0], nvir[0]), dtype=types[float])
    .zeros 401 [0, 1, 1, 1],
    -- 2641: x171 += einsum("iabc->ibac", v.aaaa.ovvv) * -1
    .add 401 (.ein [(23, [0, 1, 2, 3])] [0, 2, 1, 3]) (-1) 1,
    -- 2642: x171 += einsum("iabc->ibca", v.aaaa.ovvv)
    .add 401 (.ein [(23, [0, 1, 2, 3])] [0, 2, 3, 1]) 1 1,
    -- 2643: l1new_aa += einsum("ab,iacb->ci", x170, x171) * -1
    .add 79 (.ein [(145, [0, 1]), (401, [2, 0, 3, 1])] [3, 2]) (-1) 1,
    -- 2644: del x170
    .del 145,
    -- 2645: del x171
    .del 401,
    -- 2646: x172 = np.zeros((nocc[1], nvir[1]), dtype=types[float])
    .zeros 402 [4, 5],
    -- 2647: x172 += einsum("w,wia->ia", ls1, u11.bb)
    .add 402 (.ein [(35, [0]), (48, [0, 1, 2])] [1, 2]) 1 1,
    -- 2648: x186 += einsum("ia->ia", x172) * -1
    .add 84 (.ein [(402, [0, 1])] [0, 1]) (-1) 1,
    -- 2649: del x172
    .del 402,
    -- 2650: x173 = np.zeros((nocc[1], nvir[1]), dtype=types[float])
    .zeros 403 [4, 5],
    -- 2651: x173 += einsum("ai,ijab->jb", l1.aa, t2.abab)
    .add 403 (.ein [(17, [0, 1]), (13, [1, 2, 0, 3])] [2, 3]) 1 1,
    -- 2652: x186 += einsum("ia->ia", x173) * -1
    .add 84 (.ein [(403, [0, 1])] [0, 1]) (-1) 1,
    -- 2653: del x173
    .del 403,
    -- 2654: x174 = np.zeros((nbos, nocc[1], nocc[1]), dtype=types[float])
    .zeros 404 [2, 4, 4],
    -- 2655: x174 += einsum("ia,waj->wji", t1.bb, lu11.bb)
    .add 404 (.ein [(8, [0, 1]), (34, [2, 1, 3])] [2, 3, 0]) 1 1,
    -- 2656: x175 = np.zeros((nocc[1], nvir[1]), dtype=types[float])
    .zeros 405 [4, 5],
    -- 2657: x175 += einsum("wia,wij->ja", u11.bb, x174)
    .add 405 (.ein [(48, [0, 1, 2]), (404, [0, 1, 3])] [3, 2]) 1 1,
    -- 2658: x186 += einsum("ia->ia", x175)
    .add 84 (.ein [(405, [0, 1])] [0, 1]) 1 1,
    -- 2659: del x175
    .del 405,
    -- 2660: x513 = np.zeros((nbos, nocc[1], nvir[1]), dtype=types[float])
    .zeros 406 [2, 4, 5],
    -- 2661: x513 += einsum("ia,wij->wja", t1.bb, x174)
    .add 406 (.ein [(8, [0, 1]), (404, [2, 0, 3])] [2, 3, 1]) 1 1,
    -- 2662: x515 += einsum("wia->wia", x513) * -1
    .add 179 (.ein [(406, [0, 1, 2])] [0, 1, 2]) (-1) 1,
    -- 2663: del x513
    .del 406,
    -- 2664: lu11new_aa -= einsum("wij,kaji->wak", x174, v.aabb.ovoo)
    .add 195 (.ein [(404, [0, 1, 2]), (11, [3, 4, 2, 1])] [0, 4, 3]) (-1) 1,
    -- 2665: x177 = np.zeros((nocc[1], nocc[1], nocc[1], nvir[1]), dtype=types[float])
    .zeros 407 [4, 4, 4, 5],
    -- 2666: x177 += einsum("ia,bajk->jkib", t1.bb, l2.bbbb)
    .add 407 (.ein [(8, [0, 1]), (33, [2, 1, 3, 4])] [3, 4, 0, 2]) 1 1,
    -- 2667: x178 = np.zeros((nocc[1], nvir[1]), dtype=types[float])
    .zeros 408 [4, 5],
    -- 2668: x178 += einsum("ijka,jiab->kb", x177, x51)
    .add 408 (.ein [(407, [0, 1, 2, 3]), (215, [1, 0, 3, 4])] [2, 4]) 1 1,
    -- 2669: x186 += einsum("ia->ia", x178) * -1
    .add 84 (.ein [(408, [0, 1])] [0, 1]) (-1) 1,
    -- 2670: del x178
    .del 408,
    -- 2671: x250 = np.zeros((nocc[1], nocc[1], nocc[1], nvir[1]), dtype=types[float])
    .zeros 409 [4, 4, 4, 5],
    -- 2672: x250 += einsum("ijka->ijka", x177)
    .add 409 (.ein [(407, [0, 1, 2, 3])] [0, 1, 2, 3]) 1 1,
    -- 2673: x250 += einsum("ijka->jika", x177) * -1
    .add 409 (.ein [(407, [0, 1, 2, 3])] [1, 0, 2, 3]) (-1) 1,
    -- 2674: x252 += einsum("ijka,jlba->ilkb", x250, x51)
    .add 85 (.ein [(409, [0, 1, 2, 3]), (215, [1, 4, 5, 3])] [0, 4, 2, 5]) 1 1,
    -- 2675: del x51
    .del 215,
    -- 2676: x258 += einsum("ijab,jklb->ikla", t2.abab, x250) * -1
    .add 92 (.ein [(13, [0, 1, 2, 3]), (409, [1, 4, 5, 3])] [0, 4, 5, 2]) (-1) 1,
    -- 2677: x411 = np.zeros((nocc[1], nocc[1], nvir[1], nvir[1]), dtype=types[float])
    .zeros 410 [4, 4, 5, 5],
    -- 2678: x411 += einsum("ijka,jlkb->ilab", x250, x410)
    .add 410 (.ein [(409, [0, 1, 2, 3]), (348, [1, 4, 2, 5])] [0, 4, 3, 5]) 1 1,
    -- 2679: del x410
    .del 348,
    -- 2680: x426 += einsum("ijab->ijab", x411)
    .add 365 (.ein [(410, [0, 1, 2, 3])] [0, 1, 2, 3]) 1 1,
    -- 2681: del x411
    .del 410,
    -- 2682: l1new_bb += einsum("ijab,jkia->bk", x131, x250) * -1
    .add 80 (.ein [(351, [0, 1, 2, 3]), (409, [1, 4, 0, 2])] [3, 4]) (-1) 1,
    -- 2683: del x131
    .del 351,
    -- 2684: l2new_baba += einsum("ijka,lkib->abjl", x250, x30)
    .add 89 (.ein [(409, [0, 1, 2, 3]), (181, [4, 2, 0, 5])] [3, 5, 1, 4]) 1 1,
    -- 2685: del x250
    .del 409,
    -- 2686: x253 = np.zeros((nocc[1], nocc[1], nocc[1], nvir[1]), dtype=types[float])
    .zeros 411 [4, 4, 4, 5],
    -- 2687: x253 += einsum("ijka->ijka", x177) * -1
    .add 411 (.ein [(407, [0, 1, 2, 3])] [0, 1, 2, 3]) (-1) 1,
    -- 2688: x253 += einsum("ijka->jika", x177)
    .add 411 (.ein [(407, [0, 1, 2, 3])] [1, 0, 2, 3]) 1 1,
    -- 2689: x254 = np.zeros((nocc[1], nocc[1], nvir[1], nvir[1]), dtype=types[float])
    .zeros 412 [4, 4, 5, 5],
    -- 2690: x254 += einsum("ia,ijkb->jkba", t1.bb, x253) * -1
    .add 412 (.ein [(8, [0, 1]), (411, [0, 2, 3, 4])] [2, 3, 4, 1]) (-1) 1,
    -- 2691: l1new_bb += einsum("iabc,jiac->bj", x149, x254)
    .add 80 (.ein [(381, [0, 1, 2, 3]), (412, [4, 0, 1, 3])] [2, 4]) 1 1,
    -- 2692: del x254
    .del 412,
    -- 2693: l2new_abab += einsum("ijka,lkib->balj", x253, x30) * -1
    .add 90 (.ein [(411, [0, 1, 2, 3]), (181, [4, 2, 0, 5])] [5, 3, 4, 1]) (-1) 1,
    -- 2694: del x253
    .del 411,
    -- 2695: del x30
    .del 181,
    -- 2696: x265 = np.zeros((nocc[1], nocc[1], nocc[1], nocc[1]), dtype=types[float])
    .zeros 413 [4, 4, 4, 4],
    -- 2697: x265 += einsum("ia,jkla->kjli", t1.bb, x177)
    .add 413 (.ein [(8, [0, 1]), (407, [2, 3, 4, 1])] [3, 2, 4, 0]) 1 1,
    -- 2698: x266 = np.zeros((nocc[1], nocc[1], nocc[1], nocc[1]), dtype=types[float])
    .zeros 414 [4, 4, 4, 4],
    -- 2699: x266 += einsum("ijkl->ijkl", x265) * -1
    .add 414 (.ein [(413, [0, 1, 2, 3])] [0, 1, 2, 3]) (-1) 1,
    -- 2700: x266 += einsum("ijkl->ijlk", x265)
    .add 414 (.ein [(413, [0, 1, 2, 3])] [0, 1, 3, 2]) 1 1,
    -- 2701: x405 = np.zeros((nocc[1], nocc[1], nvir[1], nvir[1]), dtype=types[float])
    .zeros 415 [4, 4, 5, 5],
    -- 2702: x405 += einsum("iajb,klji->lkab", v.bbbb.ovov, x265)
    .add 415 (.ein [(47, [0, 1, 2, 3]), (413, [4, 5, 2, 0])] [5, 4, 1, 3]) 1 1,
    -- 2703: del x265
    .del 413,
    -- 2704: x408 = np.zeros((nocc[1], nocc[1], nvir[1], nvir[1]), dtype=types[float])
    .zeros 416 [4, 4, 5, 5],
    -- 2705: x408 += einsum("ijab->ijab", x405)
    .add 416 (.ein [(415, [0, 1, 2, 3])] [0, 1, 2, 3]) 1 1,
    -- 2706: del x405
    .del 415,
    -- 2707: x366 = np.zeros((nocc[1], nocc[1], nvir[1], nvir[1]), dtype=types[float])
    .zeros 417 [4, 4, 5, 5],
    -- 2708: x366 += einsum("iabc,jkib->kjac", v.bbbb.ovvv, x177)
    .add 417 (.ein [(32, [0, 1, 2, 3]), (407, [4, 5, 0, 2])] [5, 4, 1, 3]) 1 1,
    -- 2709: x403 -= einsum("ijab->ijab", x366)
    .add 225 (.ein [(417, [0, 1, 2, 3])] [0, 1, 2, 3]) (-1) 1,
    -- 2710: del x366
    .del 417,
    -- 2711: x375 = np.zeros((nocc[1], nocc[1], nocc[1], nvir[1]), dtype=types[float])
    .zeros 418 [4, 4, 4, 5],
    -- 2712: x375 += einsum("ijka->ijka", x177)
    .add 418 (.ein [(407, [0, 1, 2, 3])] [0, 1, 2, 3]) 1 1,
    -- 2713: x375 -= einsum("ijka->jika", x177)
    .add 418 (.ein [(407, [0, 1, 2, 3])] [1, 0, 2, 3]) (-1) 1,
    -- 2714: x425 = np.zeros((nocc[1], nocc[1], nvir[1], nvir[1]), dtype=types[float])
    .zeros 419 [4, 4, 5, 5],
    -- 2715: x425 += einsum("ia,jkib->jkba", x241, x177)
    .add 419 (.ein [(283, [0, 1]), (407, [2, 3, 0, 4])] [2, 3, 4, 1]) 1 1,
    -- 2716: del x241
    .del 283,
    -- 2717: x426 += einsum("ijab->ijab", x425)
    .add 365 (.ein [(419, [0, 1, 2, 3])] [0, 1, 2, 3]) 1 1,
    -- 2718: del x425
    .del 419,
    -- 2719: x180 = np.zeros((nocc[1], nocc[1]), dtype=types[float])
    .zeros 420 [4, 4],
    -- 2720: x180 += einsum("ai,ja->ij", l1.bb, t1.bb)
    .add 420 (.ein [(40, [0, 1]), (8, [2, 0])] [1, 2]) 1 1,
    -- 2721: x184 += einsum("ij->ij", x180)
    .add 172 (.ein [(420, [0, 1])] [0, 1]) 1 1,
    -- 2722: x288 = np.zeros((nocc[1], nocc[1]), dtype=types[float])
    .zeros 421 [4, 4],
    -- 2723: x288 += einsum("ij->ij", x180)
    .add 421 (.ein [(420, [0, 1])] [0, 1]) 1 1,
    -- 2724: x396 = np.zeros((nocc[1], nocc[1]), dtype=types[float])
    .zeros 422 [4, 4],
    -- 2725: x396 += einsum("ij->ij", x180)
    .add 422 (.ein [(420, [0, 1])] [0, 1]) 1 1,
    -- 2726: l1new_bb -= einsum("ij,ja->ai", x180, x87)
    .add 80 (.ein [(420, [0, 1]), (277, [1, 2])] [2, 0]) (-1) 1,
    -- 2727: del x180
    .del 420,
    -- 2728: del x87
    .del 277,
    -- 2729: x181 = np.zeros((nocc[1], nocc[1]), dtype=types[float])
    .zeros 423 [4, 4],
    -- 2730: x181 += einsum("wai,wja->ij", lu11.bb, u11.bb)
    .add 423 (.ein [(34, [0, 1, 2]), (48, [0, 3, 1])] [2, 3]) 1 1,
    -- 2731: x184 += einsum("ij->ij", x181)
    .add 172 (.ein [(423, [0, 1])] [0, 1]) 1 1,
    -- 2732: x285 += einsum("ij->ij", x181)
    .add 174 (.ein [(423, [0, 1])] [0, 1]) 1 1,
    -- 2733: x288 += einsum("ij->ij", x181)
    .add 421 (.ein [(423, [0, 1])] [0, 1]) 1 1,
    -- 2734: x396 += einsum("ij->ij", x181)
    .add 422 (.ein [(423, [0, 1])] [0, 1]) 1 1,
    -- 2735: del x181
    .del 423,
    -- 2736: x397 = np.zeros((nocc[1], nocc[1], nvir[1], nvir[1]), dtype=types[float])
    .zeros 424 [4, 4, 5, 5],
    -- 2737: x397 += einsum("ij,jakb->kiab", x396, v.bbbb.ovov)
    .add 424 (.ein [(422, [0, 1]), (47, [1, 2, 3, 4])] [3, 0, 2, 4]) 1 1,
    -- 2738: del x396
    .del 422,
    -- 2739: x403 += einsum("ijab->jiba", x397)
    .add 225 (.ein [(424, [0, 1, 2, 3])] [1, 0, 3, 2]) 1 1,
    -- 2740: del x397
    .del 424,
    -- 2741: x182 = np.zeros((nocc[1], nocc[1]), dtype=types[float])
    .zeros 425 [4, 4],
    -- 2742: x182 += einsum("abij,ikab->jk", l2.abab, t2.abab)
    .add 425 (.ein [(9, [0, 1, 2, 3]), (13, [2, 4, 0, 1])] [3, 4]) 1 1,
    -- 2743: x184 += einsum("ij->ij", x182)
    .add 172 (.ein [(425, [0, 1])] [0, 1]) 1 1,
    -- 2744: x185 = np.zeros((nocc[1], nvir[1]), dtype=types[float])
    .zeros 426 [4, 5],
    -- 2745: x185 += einsum("ia,ij->ja", t1.bb, x184)
    .add 426 (.ein [(8, [0, 1]), (172, [0, 2])] [2, 1]) 1 1,
    -- 2746: x186 += einsum("ia->ia", x185)
    .add 84 (.ein [(426, [0, 1])] [0, 1]) 1 1,
    -- 2747: del x185
    .del 426,
    -- 2748: x480 = np.zeros((nocc[0], nocc[1], nvir[0], nvir[1]), dtype=types[float])
    .zeros 427 [0, 4, 1, 5],
    -- 2749: x480 += einsum("ij,kajb->kiab", x184, v.aabb.ovov)
    .add 427 (.ein [(172, [0, 1]), (16, [2, 3, 1, 4])] [2, 0, 3, 4]) 1 1,
    -- 2750: l2new_baba += einsum("ijab->baji", x480) * -1
    .add 89 (.ein [(427, [0, 1, 2, 3])] [3, 2, 1, 0]) (-1) 1,
    -- 2751: l2new_abab += einsum("ijab->abij", x480) * -1
    .add 90 (.ein [(427, [0, 1, 2, 3])] [2, 3, 0, 1]) (-1) 1,
    -- 2752: del x480
    .del 427,
    -- 2753: l1new_aa += einsum("ij,kaji->ak", x184, v.aabb.ovoo) * -1
    .add 79 (.ein [(172, [0, 1]), (11, [2, 3, 1, 0])] [3, 2]) (-1) 1,
    -- 2754: l1new_bb += einsum("ij,jkia->ak", x184, x142) * -1
    .add 80 (.ein [(172, [0, 1]), (372, [1, 2, 0, 3])] [3, 2]) (-1) 1,
    -- 2755: del x142
    .del 372,
    -- 2756: ls1new += einsum("ij,wji->w", x184, g.bb.boo) * -1
    .add 333 (.ein [(172, [0, 1]), (4, [2, 1, 0])] [2]) (-1) 1,
    -- 2757: lu11new_bb += einsum("ij,wja->wai", x184, g.bb.bov) * -1
    .add 306 (.ein [(172, [0, 1]), (6, [2, 1, 3])] [2, 3, 0]) (-1) 1,
    -- 2758: del x184
    .del 172,
    -- 2759: x251 += einsum("ij->ij", x182)
    .add 173 (.ein [(425, [0, 1])] [0, 1]) 1 1,
    -- 2760: x252 += einsum("ia,jk->jika", t1.bb, x251)
    .add 85 (.ein [(8, [0, 1]), (173, [2, 3])] [2, 0, 3, 1]) 1 1,
    -- 2761: l1new_bb += einsum("ijka,kjab->bi", x252, x89) * -1
    .add 80 (.ein [(85, [0, 1, 2, 3]), (286, [2, 1, 3, 4])] [4, 0]) (-1) 1,
    -- 2762: del x252
    .del 85,
    -- 2763: x258 += einsum("ia,jk->ijka", t1.aa, x251) * -1
    .add 92 (.ein [(10, [0, 1]), (173, [2, 3])] [0, 2, 3, 1]) (-1) 1,
    -- 2764: x424 = np.zeros((nocc[1], nocc[1], nvir[1], nvir[1]), dtype=types[float])
    .zeros 428 [4, 4, 5, 5],
    -- 2765: x424 += einsum("ij,jakb->kiab", x251, v.bbbb.ovov)
    .add 428 (.ein [(173, [0, 1]), (47, [1, 2, 3, 4])] [3, 0, 2, 4]) 1 1,
    -- 2766: x426 += einsum("ijab->jiba", x424) * -1
    .add 365 (.ein [(428, [0, 1, 2, 3])] [1, 0, 3, 2]) (-1) 1,
    -- 2767: del x424
    .del 428,
    -- 2768: l1new_bb += einsum("ia,ji->aj", f.bb.ov, x251) * -1
    .add 80 (.ein [(49, [0, 1]), (173, [2, 0])] [1, 2]) (-1) 1,
    -- 2769: del x251
    .del 173,
    -- 2770: x285 += einsum("ij->ij", x182)
    .add 174 (.ein [(425, [0, 1])] [0, 1]) 1 1,
    -- 2771: del x182
    .del 425,
    -- 2772: x286 = np.zeros((nbos, nocc[1], nocc[1]), dtype=types[float])
    .zeros 429 [2, 4, 4],
    -- 2773: x286 += einsum("w,ij->wij", s1, x285)
    .add 429 (.ein [(18, [0]), (174, [1, 2])] [0, 1, 2]) 1 1,
    -- 2774: del x285
    .del 174,
    -- 2775: x186 += einsum("ia->ia", t1.bb) * -1
    .add 84 (.ein [(8, [0, 1])] [0, 1]) (-1) 1,
    -- 2776: l1new_aa += einsum("ia,jbia->bj", x186, v.aabb.ovov) * -1
    .add 79 (.ein [(84, [0, 1]), (16, [2, 3, 0, 1])] [3, 2]) (-1) 1,
    -- 2777: ls1new += einsum("ia,wia->w", x186, g.bb.bov) * -1
    .add 333 (.ein [(84, [0, 1]), (6, [2, 0, 1])] [2]) (-1) 1,
    -- 2778: x187 = np.zeros((nvir[1], nvir[1]), dtype=types[float])
    .zeros 430 [5, 5],
    -- 2779: x187 += einsum("ai,ib->ab", l1.bb, t1.bb)
    .add 430 (.ein [(40, [0, 1]), (8, [1, 2])] [0, 2]) 1 1,
    -- 2780: x191 += einsum("ab->ab", x187)
    .add 218 (.ein [(430, [0, 1])] [0, 1]) 1 1,
    -- 2781: ls1new += einsum("ab,wab->w", x187, g.bb.bvv)
    .add 333 (.ein [(430, [0, 1]), (7, [2, 0, 1])] [2]) 1 1,
    -- 2782: del x187
    .del 430,
    -- 2783: x188 = np.zeros((nvir[1], nvir[1]), dtype=types[float])
    .zeros 431 [5, 5],
    -- 2784: x188 += einsum("wai,wib->ab", lu11.bb, u11.bb)
    .add 431 (.ein [(34, [0, 1, 2]), (48, [0, 2, 3])] [1, 3]) 1 1,
    -- 2785: x191 += einsum("ab->ab", x188)
    .add 218 (.ein [(431, [0, 1])] [0, 1]) 1 1,
    -- 2786: x363 = np.zeros((nocc[1], nocc[1], nvir[1], nvir[1]), dtype=types[float])
    .zeros 432 [4, 4, 5, 5],
    -- 2787: x363 += einsum("ab,icjb->ijac", x188, v.bbbb.ovov)
    .add 432 (.ein [(431, [0, 1]), (47, [2, 3, 4, 1])] [2, 4, 0, 3]) 1 1,
    -- 2788: x403 += einsum("ijab->ijab", x363)
    .add 225 (.ein [(432, [0, 1, 2, 3])] [0, 1, 2, 3]) 1 1,
    -- 2789: del x363
    .del 432,
    -- 2790: x478 += einsum("ab->ab", x188)
    .add 220 (.ein [(431, [0, 1])] [0, 1]) 1 1,
    -- 2791: del x188
    .del 431,
    -- 2792: x189 = np.zeros((nvir[1], nvir[1]), dtype=types[float])
    .zeros 433 [5, 5],
    -- 2793: x189 += einsum("abij,ijac->bc", l2.abab, t2.abab)
    .add 433 (.ein [(9, [0, 1, 2, 3]), (13, [2, 3, 0, 4])] [1, 4]) 1 1,
    -- 2794: x191 += einsum("ab->ab", x189)
    .add 218 (.ein [(433, [0, 1])] [0, 1]) 1 1,
    -- 2795: l1new_aa += einsum("ab,icab->ci", x191, v.aabb.ovvv)
    .add 79 (.ein [(218, [0, 1]), (19, [2, 3, 0, 1])] [3, 2]) 1 1,
    -- 2796: l1new_bb += einsum("ab,iacb->ci", x191, x149) * -1
    .add 80 (.ein [(218, [0, 1]), (381, [2, 0, 3, 1])] [3, 2]) (-1) 1,
    -- 2797: del x149
    .del 381,
    -- 2798: del x191
    .del 218,
    -- 2799: x422 += einsum("ab->ab", x189)
    .add 219 (.ein [(433, [0, 1])] [0, 1]) 1 1,
    -- 2800: x423 = np.zeros((nocc[1], nocc[1], nvir[1], nvir[1]), dtype=types[float])
    .zeros 434 [4, 4, 5, 5],
    -- 2801: x423 += einsum("ab,ibjc->ijca", x422, v.bbbb.ovov)
    .add 434 (.ein [(219, [0, 1]), (47, [2, 1, 3, 4])] [2, 3, 4, 0]) 1 1,
    -- 2802: del x422
    .del 219,
    -- 2803: x426 += einsum("ijab->jiba", x423) * -1
    .add 365 (.ein [(434, [0, 1, 2, 3])] [1, 0, 3, 2]) (-1) 1,
    -- 2804: del x423
    .del 434,
    -- 2805: x478 += einsum("ab->ab", x189)
    .add 220 (.ein [(433, [0, 1])] [0, 1]) 1 1,
    -- 2806: del x189
    .del 433,
    -- 2807: x479 = np.zeros((nocc[0], nocc[1], nvir[0], nvir[1]), dtype=types[float])
    .zeros 435 [0, 4, 1, 5],
    -- 2808: x479 += einsum("ab,icjb->ijca", x478, v.aabb.ovov)
    .add 435 (.ein [(220, [0, 1]), (16, [2, 3, 4, 1])] [2, 4, 3, 0]) 1 1,
    -- 2809: l2new_baba += einsum("ijab->baji", x479) * -1
    .add 89 (.ein [(435, [0, 1, 2, 3])] [3, 2, 1, 0]) (-1) 1,
    -- 2810: l2new_abab += einsum("ijab->abij", x479) * -1
    .add 90 (.ein [(435, [0, 1, 2, 3])] [2, 3, 0, 1]) (-1) 1,
    -- 2811: del x479
    .del 435,
    -- 2812: ls1new += einsum("ab,wab->w", x478, g.bb.bvv)
    .add 333 (.ein [(220, [0, 1]), (7, [2, 0, 1])] [2]) 1 1,
    -- 2813: lu11new_bb += einsum("ab,wib->wai", x478, g.bb.bov) * -1
    .add 306 (.ein [(220, [0, 1]), (6, [2, 3, 1])] [2, 0, 3]) (-1) 1,
    -- 2814: del x478
    .del 220,
    -- 2815: x192 = np.zeros((nocc[0], nocc[0], nocc[0], nvir[0]), dtype=types[float])
    .zeros 436 [0, 0, 0, 1],
    -- 2816: x192 -= einsum("ijka->ikja", v.aaaa.ooov)
    .add 436 (.ein [(27, [0, 1, 2, 3])] [0, 2, 1, 3]) (-1) 1,
    -- 2817: x192 += einsum("ijka->kija", v.aaaa.ooov)
    .add 436 (.ein [(27, [0, 1, 2, 3])] [2, 0, 1, 3]) 1 1,
    -- 2818: x307 = np.zeros((nocc[0], nocc[0], nvir[0], nvir[0]), dtype=types[float])
    .zeros 437 [0, 0, 1, 1],
    -- 2819: x307 += einsum("ijka,lkib->jlab", x192, x306)
    .add 437 (.ein [(436, [0, 1, 2, 3]), (241, [4, 2, 0, 5])] [1, 4, 3, 5]) 1 1,
    -- 2820: del x306
    .del 241,
    -- 2821: x333 += einsum("ijab->jiba", x307)
    .add 87 (.ein [(437, [0, 1, 2, 3])] [1, 0, 3, 2]) 1 1,
    -- 2822: del x307
    .del 437,
    -- 2823: x318 = np.zeros((nocc[0], nocc[0]), dtype=types[float])
    .zeros 438 [0, 0],
    -- 2824: x318 += einsum("ia,jika->jk", t1.aa, x192)
    .add 438 (.ein [(10, [0, 1]), (436, [2, 0, 3, 1])] [2, 3]) 1 1,
    -- 2825: x319 -= einsum("ij->ij", x318)
    .add 316 (.ein [(438, [0, 1])] [0, 1]) (-1) 1,
    -- 2826: del x318
    .del 438,
    -- 2827: x320 = np.zeros((nocc[0], nocc[0], nvir[0], nvir[0]), dtype=types[float])
    .zeros 439 [0, 0, 1, 1],
    -- 2828: x320 += einsum("ij,abjk->kiab", x319, l2.aaaa)
    .add 439 (.ein [(316, [0, 1]), (25, [2, 3, 1, 4])] [4, 0, 2, 3]) 1 1,
    -- 2829: del x319
    .del 316,
    -- 2830: x333 -= einsum("ijab->ijba", x320)
    .add 87 (.ein [(439, [0, 1, 2, 3])] [0, 1, 3, 2]) (-1) 1,
    -- 2831: del x320
    .del 439,
    -- 2832: l1new_aa += einsum("ij,kjia->ak", x163, x192) * -1
    .add 79 (.ein [(95, [0, 1]), (436, [2, 1, 0, 3])] [3, 2]) (-1) 1,
    -- 2833: del x163
    .del 95,
    -- 2834: l2new_abab += einsum("ijka,kilb->abjl", x192, x53)
    .add 90 (.ein [(436, [0, 1, 2, 3]), (221, [2, 0, 4, 5])] [3, 5, 1, 4]) 1 1,
    -- 2835: del x192
    .del 436,
    -- 2836: x193 = np.zeros((nbos, nocc[0], nvir[0]), dtype=types[float])
    .zeros 440 [2, 0, 1],
    -- 2837: x193 += einsum("wia,jbia->wjb", u11.bb, v.aabb.ovov)
    .add 440 (.ein [(48, [0, 1, 2]), (16, [3, 4, 1, 2])] [0, 3, 4]) 1 1,
    -- 2838: x195 += einsum("wia->wia", x193)
    .add 124 (.ein [(440, [0, 1, 2])] [0, 1, 2]) 1 1,
    -- 2839: x324 = np.zeros((nbos, nocc[0], nvir[0]), dtype=types[float])
    .zeros 441 [2, 0, 1],
    -- 2840: x324 += einsum("wia->wia", x193)
    .add 441 (.ein [(440, [0, 1, 2])] [0, 1, 2]) 1 1,
    -- 2841: x484 = np.zeros((nbos, nocc[0], nvir[0]), dtype=types[float])
    .zeros 442 [2, 0, 1],
    -- 2842: x484 += einsum("wia->wia", x193)
    .add 442 (.ein [(440, [0, 1, 2])] [0, 1, 2]) 1 1,
    -- 2843: del x193
    .del 440,
    -- 2844: x195 += einsum("wia->wia", gc.aa.bov)
    .add 124 (.ein [(68, [0, 1, 2])] [0, 1, 2]) 1 1,
    -- 2845: x196 += einsum("ia,wja->wji", t1.aa, x195)
    .add 192 (.ein [(10, [0, 1]), (124, [2, 3, 1])] [2, 3, 0]) 1 1,
    -- 2846: l1new_aa += einsum("wij,wja->ai", x157, x195) * -1
    .add 79 (.ein [(387, [0, 1, 2]), (124, [0, 2, 3])] [3, 1]) (-1) 1,
    -- 2847: del x195
    .del 124,
    -- 2848: x196 += einsum("wij->wij", gc.aa.boo)
    .add 192 (.ein [(67, [0, 1, 2])] [0, 1, 2]) 1 1,
    -- 2849: x196 += einsum("wia,jkia->wjk", u11.bb, v.aabb.ooov)
    .add 192 (.ein [(48, [0, 1, 2]), (12, [3, 4, 1, 2])] [0, 3, 4]) 1 1,
    -- 2850: l1new_aa += einsum("wai,wji->aj", lu11.aa, x196) * -1
    .add 79 (.ein [(41, [0, 1, 2]), (192, [0, 3, 2])] [1, 3]) (-1) 1,
    -- 2851: del x196
    .del 192,
    -- 2852: x197 = np.zeros((nocc[0], nvir[0], nvir[0], nvir[0]), dtype=types[float])
    .zeros 443 [0, 1, 1, 1],
    -- 2853: x197 += einsum("iabc->ibac", v.aaaa.ovvv)
    .add 443 (.ein [(23, [0, 1, 2, 3])] [0, 2, 1, 3]) 1 1,
    -- 2854: x197 -= einsum("iabc->ibca", v.aaaa.ovvv)
    .add 443 (.ein [(23, [0, 1, 2, 3])] [0, 2, 3, 1]) (-1) 1,
    -- 2855: x198 = np.zeros((nbos, nvir[0], nvir[0]), dtype=types[float])
    .zeros 444 [2, 1, 1],
    -- 2856: x198 -= einsum("wia,ibca->wbc", u11.aa, x197)
    .add 444 (.ein [(26, [0, 1, 2]), (443, [1, 3, 4, 2])] [0, 3, 4]) (-1) 1,
    -- 2857: x311 = np.zeros((nvir[0], nvir[0]), dtype=types[float])
    .zeros 445 [1, 1],
    -- 2858: x311 += einsum("ia,ibca->bc", t1.aa, x197)
    .add 445 (.ein [(10, [0, 1]), (443, [0, 2, 3, 1])] [2, 3]) 1 1,
    -- 2859: del x197
    .del 443,
    -- 2860: x312 -= einsum("ab->ab", x311)
    .add 326 (.ein [(445, [0, 1])] [0, 1]) (-1) 1,
    -- 2861: del x311
    .del 445,
    -- 2862: x313 = np.zeros((nocc[0], nocc[0], nvir[0], nvir[0]), dtype=types[float])
    .zeros 446 [0, 0, 1, 1],
    -- 2863: x313 += einsum("ab,acij->ijcb", x312, l2.aaaa)
    .add 446 (.ein [(326, [0, 1]), (25, [0, 2, 3, 4])] [3, 4, 2, 1]) 1 1,
    -- 2864: del x312
    .del 326,
    -- 2865: x333 += einsum("ijab->jiab", x313)
    .add 87 (.ein [(446, [0, 1, 2, 3])] [1, 0, 2, 3]) 1 1,
    -- 2866: del x313
    .del 446,
    -- 2867: x198 += einsum("wab->wab", gc.aa.bvv)
    .add 444 (.ein [(70, [0, 1, 2])] [0, 1, 2]) 1 1,
    -- 2868: x198 += einsum("wia,iabc->wbc", u11.bb, v.bbaa.ovvv)
    .add 444 (.ein [(48, [0, 1, 2]), (14, [1, 2, 3, 4])] [0, 3, 4]) 1 1,
    -- 2869: l1new_aa += einsum("wai,wab->bi", lu11.aa, x198)
    .add 79 (.ein [(41, [0, 1, 2]), (444, [0, 1, 3])] [3, 2]) 1 1,
    -- 2870: del x198
    .del 444,
    -- 2871: x199 = np.zeros((nbos, nocc[0], nvir[0]), dtype=types[float])
    .zeros 447 [2, 0, 1],
    -- 2872: x199 += einsum("wia,baji->wjb", u11.bb, l2.abab)
    .add 447 (.ein [(48, [0, 1, 2]), (9, [3, 2, 4, 1])] [0, 4, 3]) 1 1,
    -- 2873: x202 = np.zeros((nbos, nocc[0], nvir[0]), dtype=types[float])
    .zeros 448 [2, 0, 1],
    -- 2874: x202 += einsum("wia->wia", x199)
    .add 448 (.ein [(447, [0, 1, 2])] [0, 1, 2]) 1 1,
    -- 2875: x204 = np.zeros((nbos, nocc[0], nvir[0]), dtype=types[float])
    .zeros 449 [2, 0, 1],
    -- 2876: x204 += einsum("wia->wia", x199)
    .add 449 (.ein [(447, [0, 1, 2])] [0, 1, 2]) 1 1,
    -- 2877: del x199
    .del 447,
    -- 2878: x200 = np.zeros((nocc[0], nocc[0], nvir[0], nvir[0]), dtype=types[float])
    .zeros 450 [0, 0, 1, 1],
    -- 2879: x200 -= einsum("abij->jiab", l2.aaaa)
    .add 450 (.ein [(25, [0, 1, 2, 3])] [3, 2, 0, 1]) (-1) 1,
    -- 2880: x200 += einsum("abij->jiba", l2.aaaa)
    .add 450 (.ein [(25, [0, 1, 2, 3])] [3, 2, 1, 0]) 1 1,
    -- 2881: x201 = np.zeros((nbos, nocc[0], nvir[0]), dtype=types[float])
    .zeros 451 [2, 0, 1],
    -- 2882: x201 += einsum("wia,ijba->wjb", u11.aa, x200)
    .add 451 (.ein [(26, [0, 1, 2]), (450, [1, 3, 4, 2])] [0, 3, 4]) 1 1,
    -- 2883: x202 -= einsum("wia->wia", x201)
    .add 448 (.ein [(451, [0, 1, 2])] [0, 1, 2]) (-1) 1,
    -- 2884: del x201
    .del 451,
    -- 2885: x321 = np.zeros((nocc[0], nocc[0], nvir[0], nvir[0]), dtype=types[float])
    .zeros 452 [0, 0, 1, 1],
    -- 2886: x321 += einsum("wia,wjb->ijab", g.aa.bov, x202)
    .add 452 (.ein [(2, [0, 1, 2]), (448, [0, 3, 4])] [1, 3, 2, 4]) 1 1,
    -- 2887: x333 += einsum("ijab->ijab", x321)
    .add 87 (.ein [(452, [0, 1, 2, 3])] [0, 1, 2, 3]) 1 1,
    -- 2888: del x321
    .del 452,
    -- 2889: x488 = np.zeros((nocc[0], nocc[1], nvir[0], nvir[1]), dtype=types[float])
    .zeros 453 [0, 4, 1, 5],
    -- 2890: x488 += einsum("wia,wjb->jiba", g.bb.bov, x202)
    .add 453 (.ein [(6, [0, 1, 2]), (448, [0, 3, 4])] [3, 1, 4, 2]) 1 1,
    -- 2891: l2new_baba += einsum("ijab->baji", x488)
    .add 89 (.ein [(453, [0, 1, 2, 3])] [3, 2, 1, 0]) 1 1,
    -- 2892: l2new_abab += einsum("ijab->abij", x488)
    .add 90 (.ein [(453, [0, 1, 2, 3])] [2, 3, 0, 1]) 1 1,
    -- 2893: del x488
    .del 453,
    -- 2894: l1new_aa += einsum("wab,wia->bi", g.aa.bvv, x202)
    .add 79 (.ein [(3, [0, 1, 2]), (448, [0, 3, 1])] [2, 3]) 1 1,
    -- 2895: l1new_aa += einsum("wia,wji->aj", x202, x95) * -1
    .add 79 (.ein [(448, [0, 1, 2]), (308, [0, 3, 1])] [2, 3]) (-1) 1,
    -- 2896: del x202
    .del 448,
    -- 2897: del x95
    .del 308,
    -- 2898: x203 = np.zeros((nocc[0], nocc[0], nvir[0], nvir[0]), dtype=types[float])
    .zeros 454 [0, 0, 1, 1],
    -- 2899: x203 += einsum("abij->jiab", l2.aaaa) * -1
    .add 454 (.ein [(25, [0, 1, 2, 3])] [3, 2, 0, 1]) (-1) 1,
    -- 2900: x203 += einsum("abij->jiba", l2.aaaa)
    .add 454 (.ein [(25, [0, 1, 2, 3])] [3, 2, 1, 0]) 1 1,
    -- 2901: x204 += einsum("wia,ijba->wjb", u11.aa, x203) * -1
    .add 449 (.ein [(26, [0, 1, 2]), (454, [1, 3, 4, 2])] [0, 3, 4]) (-1) 1,
    -- 2902: x206 += einsum("ia,wja->wji", t1.aa, x204)
    .add 393 (.ein [(10, [0, 1]), (449, [2, 3, 1])] [2, 3, 0]) 1 1,
    -- 2903: del x204
    .del 449,
    -- 2904: x206 += einsum("ai,wja->wij", l1.aa, u11.aa)
    .add 393 (.ein [(17, [0, 1]), (26, [2, 3, 0])] [2, 1, 3]) 1 1,
    -- 2905: l1new_aa += einsum("wia,wji->aj", g.aa.bov, x206) * -1
    .add 79 (.ein [(2, [0, 1, 2]), (393, [0, 3, 1])] [2, 3]) (-1) 1,
    -- 2906: del x206
    .del 393,
    -- 2907: x207 = np.zeros((nocc[0], nocc[0], nvir[0], nvir[0]), dtype=types[float])
    .zeros 455 [0, 0, 1, 1],
    -- 2908: x207 += einsum("iabj->ijba", v.aaaa.ovvo)
    .add 455 (.ein [(28, [0, 1, 2, 3])] [0, 3, 2, 1]) 1 1,
    -- 2909: x207 -= einsum("ijab->ijab", v.aaaa.oovv)
    .add 455 (.ein [(29, [0, 1, 2, 3])] [0, 1, 2, 3]) (-1) 1,
    -- 2910: l1new_aa += einsum("ai,jiab->bj", l1.aa, x207)
    .add 79 (.ein [(17, [0, 1]), (455, [2, 1, 0, 3])] [3, 2]) 1 1,
    -- 2911: lu11new_aa += einsum("wai,jiab->wbj", lu11.aa, x207)
    .add 195 (.ein [(41, [0, 1, 2]), (455, [3, 2, 1, 4])] [0, 4, 3]) 1 1,
    -- 2912: del x207
    .del 455,
    -- 2913: x209 += einsum("ia->ia", f.aa.ov)
    .add 115 (.ein [(20, [0, 1])] [0, 1]) 1 1,
    -- 2914: l1new_aa += einsum("ij,ja->ai", x208, x209) * -1
    .add 79 (.ein [(96, [0, 1]), (115, [1, 2])] [2, 0]) (-1) 1,
    -- 2915: del x208
    .del 96,
    -- 2916: del x209
    .del 115,
    -- 2917: x210 = np.zeros((nbos), dtype=types[float])
    .zeros 456 [2],
    -- 2918: x210 += einsum("w,wx->x", s1, w)
    .add 456 (.ein [(18, [0]), (60, [0, 1])] [1]) 1 1,
    -- 2919: x215 += einsum("w->w", x210)
    .add 194 (.ein [(456, [0])] [0]) 1 1,
    -- 2920: del x210
    .del 456,
    -- 2921: x211 = np.zeros((nbos), dtype=types[float])
    .zeros 457 [2],
    -- 2922: x211 += einsum("ia,wia->w", t1.aa, gc.aa.bov)
    .add 457 (.ein [(10, [0, 1]), (68, [2, 0, 1])] [2]) 1 1,
    -- 2923: x215 += einsum("w->w", x211)
    .add 194 (.ein [(457, [0])] [0]) 1 1,
    -- 2924: del x211
    .del 457,
    -- 2925: x212 = np.zeros((nbos), dtype=types[float])
    .zeros 458 [2],
    -- 2926: x212 += einsum("ia,wia->w", t1.bb, gc.bb.bov)
    .add 458 (.ein [(8, [0, 1]), (72, [2, 0, 1])] [2]) 1 1,
    -- 2927: x215 += einsum("w->w", x212)
    .add 194 (.ein [(458, [0])] [0]) 1 1,
    -- 2928: del x212
    .del 458,
    -- 2929: x215 += einsum("w->w", G)
    .add 194 (.ein [(52, [0])] [0]) 1 1,
    -- 2930: l1new_aa += einsum("w,wai->ai", x215, lu11.aa)
    .add 79 (.ein [(194, [0]), (41, [0, 1, 2])] [1, 2]) 1 1,
    -- 2931: l1new_bb += einsum("w,wai->ai", x215, lu11.bb)
    .add 80 (.ein [(194, [0]), (34, [0, 1, 2])] [1, 2]) 1 1,
    -- 2932: del x215
    .del 194,
    -- 2933: x216 = np.zeros((nbos), dtype=types[float])
    .zeros 459 [2],
    -- 2934: x216 += einsum("ai,wia->w", l1.aa, u11.aa)
    .add 459 (.ein [(17, [0, 1]), (26, [2, 1, 0])] [2]) 1 1,
    -- 2935: x218 = np.zeros((nbos), dtype=types[float])
    .zeros 460 [2],
    -- 2936: x218 += einsum("w->w", x216)
    .add 460 (.ein [(459, [0])] [0]) 1 1,
    -- 2937: del x216
    .del 459,
    -- 2938: x217 = np.zeros((nbos), dtype=types[float])
    .zeros 461 [2],
    -- 2939: x217 += einsum("ai,wia->w", l1.bb, u11.bb)
    .add 461 (.ein [(40, [0, 1]), (48, [2, 1, 0])] [2]) 1 1,
    -- 2940: x218 += einsum("w->w", x217)
    .add 460 (.ein [(461, [0])] [0]) 1 1,
    -- 2941: del x217
    .del 461,
    -- 2942: x218 += einsum("w->w", s1)
    .add 460 (.ein [(18, [0])] [0]) 1 1,
    -- 2943: l1new_aa += einsum("w,wia->ai", x218, g.aa.bov)
    .add 79 (.ein [(460, [0]), (2, [0, 1, 2])] [2, 1]) 1 1,
    -- 2944: l1new_bb += einsum("w,wia->ai", x218, g.bb.bov)
    .add 80 (.ein [(460, [0]), (6, [0, 1, 2])] [2, 1]) 1 1,
    -- 2945: del x218
    .del 460,
    -- 2946: x219 = np.zeros((nocc[1], nocc[1], nvir[0], nvir[0]), dtype=types[float])
    .zeros 462 [4, 4, 1, 1],
    -- 2947: x219 += einsum("abij,ikcb->jkac", l2.abab, t2.abab)
    .add 462 (.ein [(9, [0, 1, 2, 3]), (13, [2, 4, 5, 1])] [3, 4, 0, 5]) 1 1,
    -- 2948: l1new_bb += einsum("iabc,jibc->aj", v.bbaa.ovvv, x219) * -1
    .add 80 (.ein [(14, [0, 1, 2, 3]), (462, [4, 0, 2, 3])] [1, 4]) (-1) 1,
    -- 2949: del x219
    .del 462,
    -- 2950: x220 += einsum("ijka->jkia", v.bbbb.ooov) * -1
    .add 341 (.ein [(54, [0, 1, 2, 3])] [1, 2, 0, 3]) (-1) 1,
    -- 2951: x220 += einsum("ijka->jika", v.bbbb.ooov)
    .add 341 (.ein [(54, [0, 1, 2, 3])] [1, 0, 2, 3]) 1 1,
    -- 2952: x223 += einsum("ijka,jlab->iklb", x220, x28)
    .add 186 (.ein [(341, [0, 1, 2, 3]), (168, [1, 4, 3, 5])] [0, 2, 4, 5]) 1 1,
    -- 2953: del x220
    .del 341,
    -- 2954: x221 = np.zeros((nocc[1], nocc[1], nocc[1], nocc[1]), dtype=types[float])
    .zeros 463 [4, 4, 4, 4],
    -- 2955: x221 += einsum("ia,jkla->ijlk", t1.bb, v.bbbb.ooov)
    .add 463 (.ein [(8, [0, 1]), (54, [2, 3, 4, 1])] [0, 2, 4, 3]) 1 1,
    -- 2956: x222 = np.zeros((nocc[1], nocc[1], nocc[1], nocc[1]), dtype=types[float])
    .zeros 464 [4, 4, 4, 4],
    -- 2957: x222 += einsum("ijkl->ikjl", x221) * -1
    .add 464 (.ein [(463, [0, 1, 2, 3])] [0, 2, 1, 3]) (-1) 1,
    -- 2958: x222 += einsum("ijkl->ijkl", x221)
    .add 464 (.ein [(463, [0, 1, 2, 3])] [0, 1, 2, 3]) 1 1,
    -- 2959: x223 += einsum("ia,jikl->jkla", t1.bb, x222) * -1
    .add 186 (.ein [(8, [0, 1]), (464, [2, 0, 3, 4])] [2, 3, 4, 1]) (-1) 1,
    -- 2960: del x222
    .del 464,
    -- 2961: x365 = np.zeros((nocc[1], nocc[1], nvir[1], nvir[1]), dtype=types[float])
    .zeros 465 [4, 4, 5, 5],
    -- 2962: x365 += einsum("abij,jkli->klba", l2.bbbb, x221)
    .add 465 (.ein [(33, [0, 1, 2, 3]), (463, [3, 4, 5, 2])] [4, 5, 1, 0]) 1 1,
    -- 2963: del x221
    .del 463,
    -- 2964: x403 -= einsum("ijab->ijab", x365)
    .add 225 (.ein [(465, [0, 1, 2, 3])] [0, 1, 2, 3]) (-1) 1,
    -- 2965: del x365
    .del 465,
    -- 2966: x224 = np.zeros((nocc[1], nocc[1], nvir[1], nvir[1]), dtype=types[float])
    .zeros 466 [4, 4, 5, 5],
    -- 2967: x224 -= einsum("abij->jiab", l2.bbbb)
    .add 466 (.ein [(33, [0, 1, 2, 3])] [3, 2, 0, 1]) (-1) 1,
    -- 2968: x224 += einsum("abij->jiba", l2.bbbb)
    .add 466 (.ein [(33, [0, 1, 2, 3])] [3, 2, 1, 0]) 1 1,
    -- 2969: l1new_bb += einsum("ijka,ikab->bj", x223, x224)
    .add 80 (.ein [(186, [0, 1, 2, 3]), (466, [0, 2, 3, 4])] [4, 1]) 1 1,
    -- 2970: del x223
    .del 186,
    -- 2971: x225 += einsum("ijka->ikja", v.bbbb.ooov)
    .add 342 (.ein [(54, [0, 1, 2, 3])] [0, 2, 1, 3]) 1 1,
    -- 2972: x225 += einsum("ijka->kija", v.bbbb.ooov) * -1
    .add 342 (.ein [(54, [0, 1, 2, 3])] [2, 0, 1, 3]) (-1) 1,
    -- 2973: x228 += einsum("ijab,jklb->ikla", t2.abab, x225) * -1
    .add 159 (.ein [(13, [0, 1, 2, 3]), (342, [1, 4, 5, 3])] [0, 4, 5, 2]) (-1) 1,
    -- 2974: del x225
    .del 342,
    -- 2975: x226 = np.zeros((nocc[1], nocc[1], nvir[0], nvir[0]), dtype=types[float])
    .zeros 467 [4, 4, 1, 1],
    -- 2976: x226 += einsum("ia,jabc->ijbc", t1.bb, v.bbaa.ovvv)
    .add 467 (.ein [(8, [0, 1]), (14, [2, 1, 3, 4])] [0, 2, 3, 4]) 1 1,
    -- 2977: x227 = np.zeros((nocc[1], nocc[1], nvir[0], nvir[0]), dtype=types[float])
    .zeros 468 [4, 4, 1, 1],
    -- 2978: x227 += einsum("ijab->jiab", x226)
    .add 468 (.ein [(467, [0, 1, 2, 3])] [1, 0, 2, 3]) 1 1,
    -- 2979: x456 = np.zeros((nocc[1], nocc[1], nvir[0], nvir[0]), dtype=types[float])
    .zeros 469 [4, 4, 1, 1],
    -- 2980: x456 += einsum("ijab->jiab", x226)
    .add 469 (.ein [(467, [0, 1, 2, 3])] [1, 0, 2, 3]) 1 1,
    -- 2981: del x226
    .del 467,
    -- 2982: x227 += einsum("ijab->ijab", v.bbaa.oovv)
    .add 468 (.ein [(15, [0, 1, 2, 3])] [0, 1, 2, 3]) 1 1,
    -- 2983: x228 += einsum("ia,jkba->ijkb", t1.aa, x227)
    .add 159 (.ein [(10, [0, 1]), (468, [2, 3, 4, 1])] [0, 2, 3, 4]) 1 1,
    -- 2984: del x227
    .del 468,
    -- 2985: x228 += einsum("ijak->kija", v.bbaa.oovo)
    .add 159 (.ein [(61, [0, 1, 2, 3])] [3, 0, 1, 2]) 1 1,
    -- 2986: x228 += einsum("ia,jabk->kjib", t1.bb, v.bbaa.ovvo)
    .add 159 (.ein [(8, [0, 1]), (46, [2, 1, 3, 4])] [4, 2, 0, 3]) 1 1,
    -- 2987: x228 += einsum("ijab,kbca->ikjc", t2.abab, v.bbaa.ovvv)
    .add 159 (.ein [(13, [0, 1, 2, 3]), (14, [4, 3, 5, 2])] [0, 4, 1, 5]) 1 1,
    -- 2988: l1new_bb += einsum("abij,ikja->bk", l2.abab, x228) * -1
    .add 80 (.ein [(9, [0, 1, 2, 3]), (159, [2, 4, 3, 0])] [1, 4]) (-1) 1,
    -- 2989: del x228
    .del 159,
    -- 2990: x229 = np.zeros((nocc[1], nocc[1], nvir[1], nvir[1]), dtype=types[float])
    .zeros 470 [4, 4, 5, 5],
    -- 2991: x229 += einsum("abij,ikac->jkbc", l2.abab, t2.abab)
    .add 470 (.ein [(9, [0, 1, 2, 3]), (13, [2, 4, 0, 5])] [3, 4, 1, 5]) 1 1,
    -- 2992: x232 = np.zeros((nocc[1], nocc[1], nvir[1], nvir[1]), dtype=types[float])
    .zeros 471 [4, 4, 5, 5],
    -- 2993: x232 += einsum("ijab->ijab", x229)
    .add 471 (.ein [(470, [0, 1, 2, 3])] [0, 1, 2, 3]) 1 1,
    -- 2994: del x229
    .del 470,
    -- 2995: x230 = np.zeros((nocc[1], nocc[1], nvir[1], nvir[1]), dtype=types[float])
    .zeros 472 [4, 4, 5, 5],
    -- 2996: x230 += einsum("abij->jiab", l2.bbbb) * -1
    .add 472 (.ein [(33, [0, 1, 2, 3])] [3, 2, 0, 1]) (-1) 1,
    -- 2997: x230 += einsum("abij->jiba", l2.bbbb)
    .add 472 (.ein [(33, [0, 1, 2, 3])] [3, 2, 1, 0]) 1 1,
    -- 2998: x231 = np.zeros((nocc[1], nocc[1], nvir[1], nvir[1]), dtype=types[float])
    .zeros 473 [4, 4, 5, 5],
    -- 2999: x231 += einsum("ijab,ikca->kjcb", x230, x28)
    .add 473 (.ein [(472, [0, 1, 2, 3]), (168, [0, 4, 5, 2])] [4, 1, 5, 3]) 1 1,
    -- 3000: del x28
    .del 168,
    -- 3001: x232 += einsum("ijab->jiba", x231)
    .add 471 (.ein [(473, [0, 1, 2, 3])] [1, 0, 3, 2]) 1 1,
    -- 3002: del x231
    .del 473,
    -- 3003: x409 = np.zeros((nocc[1], nocc[1], nvir[1], nvir[1]), dtype=types[float])
    .zeros 474 [4, 4, 5, 5],
    -- 3004: x409 += einsum("ijab,jkcb->kica", x232, x89)
    .add 474 (.ein [(471, [0, 1, 2, 3]), (286, [1, 4, 5, 3])] [4, 0, 5, 2]) 1 1,
    -- 3005: x426 += einsum("ijab->jiba", x409) * -1
    .add 365 (.ein [(474, [0, 1, 2, 3])] [1, 0, 3, 2]) (-1) 1,
    -- 3006: del x409
    .del 474,
    -- 3007: x249 += einsum("ijab,jkbc->ikac", t2.abab, x230) * -1
    .add 148 (.ein [(13, [0, 1, 2, 3]), (472, [1, 4, 3, 5])] [0, 4, 2, 5]) (-1) 1,
    -- 3008: del x230
    .del 472,
    -- 3009: l1new_bb += einsum("iabc,ijab->cj", v.aabb.ovvv, x249) * -1
    .add 80 (.ein [(19, [0, 1, 2, 3]), (148, [0, 4, 1, 2])] [3, 4]) (-1) 1,
    -- 3010: del x249
    .del 148,
    -- 3011: x233 = np.zeros((nocc[1], nvir[1], nvir[1], nvir[1]), dtype=types[float])
    .zeros 475 [4, 5, 5, 5],
    -- 3012: x233 += einsum("iabc->ibac", v.bbbb.ovvv)
    .add 475 (.ein [(32, [0, 1, 2, 3])] [0, 2, 1, 3]) 1 1,
    -- 3013: x233 += einsum("iabc->ibca", v.bbbb.ovvv) * -1
    .add 475 (.ein [(32, [0, 1, 2, 3])] [0, 2, 3, 1]) (-1) 1,
    -- 3014: l1new_bb += einsum("ijab,jacb->ci", x232, x233) * -1
    .add 80 (.ein [(471, [0, 1, 2, 3]), (475, [1, 2, 4, 3])] [4, 0]) (-1) 1,
    -- 3015: del x232
    .del 471,
    -- 3016: del x233
    .del 475,
    -- 3017: x234 = np.zeros((nocc[1], nocc[1], nocc[1], nvir[1]), dtype=types[float])
    .zeros 476 [4, 4, 4, 5],
    -- 3018: x234 += einsum("ia,jkil->jkla", t1.bb, v.bbbb.oooo)
    .add 476 (.ein [(8, [0, 1]), (62, [2, 3, 0, 4])] [2, 3, 4, 1]) 1 1,
    -- 3019: x237 = np.zeros((nocc[1], nocc[1], nocc[1], nvir[1]), dtype=types[float])
    .zeros 477 [4, 4, 4, 5],
    -- 3020: x237 += einsum("ijka->ijka", x234)
    .add 477 (.ein [(476, [0, 1, 2, 3])] [0, 1, 2, 3]) 1 1,
    -- 3021: del x234
    .del 476,
    -- 3022: x235 += einsum("ia->ia", f.bb.ov)
    .add 279 (.ein [(49, [0, 1])] [0, 1]) 1 1,
    -- 3023: x236 = np.zeros((nocc[1], nocc[1], nocc[1], nvir[1]), dtype=types[float])
    .zeros 478 [4, 4, 4, 5],
    -- 3024: x236 += einsum("ia,jkab->jkib", x235, t2.bbbb)
    .add 478 (.ein [(279, [0, 1]), (31, [2, 3, 1, 4])] [2, 3, 0, 4]) 1 1,
    -- 3025: del x235
    .del 279,
    -- 3026: x237 += einsum("ijka->kjia", x236)
    .add 477 (.ein [(478, [0, 1, 2, 3])] [2, 1, 0, 3]) 1 1,
    -- 3027: del x236
    .del 478,
    -- 3028: x237 += einsum("ijak->ijka", v.bbbb.oovo) * -1
    .add 477 (.ein [(63, [0, 1, 2, 3])] [0, 1, 3, 2]) (-1) 1,
    -- 3029: x248 = np.zeros((nocc[1], nocc[1], nocc[1], nvir[1]), dtype=types[float])
    .zeros 479 [4, 4, 4, 5],
    -- 3030: x248 += einsum("ijka->ikja", x237)
    .add 479 (.ein [(477, [0, 1, 2, 3])] [0, 2, 1, 3]) 1 1,
    -- 3031: x248 += einsum("ijka->ijka", x237) * -1
    .add 479 (.ein [(477, [0, 1, 2, 3])] [0, 1, 2, 3]) (-1) 1,
    -- 3032: del x237
    .del 477,
    -- 3033: x238 = np.zeros((nocc[1], nocc[1], nocc[1], nvir[1]), dtype=types[float])
    .zeros 480 [4, 4, 4, 5],
    -- 3034: x238 += einsum("ijab,kbca->jikc", t2.bbbb, v.bbbb.ovvv)
    .add 480 (.ein [(31, [0, 1, 2, 3]), (32, [4, 3, 5, 2])] [1, 0, 4, 5]) 1 1,
    -- 3035: x247 += einsum("ijka->ijka", x238) * -1
    .add 289 (.ein [(480, [0, 1, 2, 3])] [0, 1, 2, 3]) (-1) 1,
    -- 3036: del x238
    .del 480,
    -- 3037: x239 = np.zeros((nocc[1], nocc[1], nvir[1], nvir[1]), dtype=types[float])
    .zeros 481 [4, 4, 5, 5],
    -- 3038: x239 += einsum("ia,jbca->ijcb", t1.bb, v.bbbb.ovvv)
    .add 481 (.ein [(8, [0, 1]), (32, [2, 3, 4, 1])] [0, 2, 4, 3]) 1 1,
    -- 3039: x240 = np.zeros((nocc[1], nocc[1], nocc[1], nvir[1]), dtype=types[float])
    .zeros 482 [4, 4, 4, 5],
    -- 3040: x240 += einsum("ia,jkba->ijkb", t1.bb, x239)
    .add 482 (.ein [(8, [0, 1]), (481, [2, 3, 4, 1])] [0, 2, 3, 4]) 1 1,
    -- 3041: del x239
    .del 481,
    -- 3042: x247 += einsum("ijka->ijka", x240) * -1
    .add 289 (.ein [(482, [0, 1, 2, 3])] [0, 1, 2, 3]) (-1) 1,
    -- 3043: del x240
    .del 482,
    -- 3044: x243 = np.zeros((nocc[1], nocc[1], nocc[1], nocc[1]), dtype=types[float])
    .zeros 483 [4, 4, 4, 4],
    -- 3045: x243 += einsum("ijab,kalb->ijkl", t2.bbbb, v.bbbb.ovov)
    .add 483 (.ein [(31, [0, 1, 2, 3]), (47, [4, 2, 5, 3])] [0, 1, 4, 5]) 1 1,
    -- 3046: x245 += einsum("ijkl->jilk", x243)
    .add 344 (.ein [(483, [0, 1, 2, 3])] [1, 0, 3, 2]) 1 1,
    -- 3047: x246 = np.zeros((nocc[1], nocc[1], nocc[1], nvir[1]), dtype=types[float])
    .zeros 484 [4, 4, 4, 5],
    -- 3048: x246 += einsum("ia,jkil->jkla", t1.bb, x245)
    .add 484 (.ein [(8, [0, 1]), (344, [2, 3, 0, 4])] [2, 3, 4, 1]) 1 1,
    -- 3049: del x245
    .del 344,
    -- 3050: x247 += einsum("ijka->jika", x246)
    .add 289 (.ein [(484, [0, 1, 2, 3])] [1, 0, 2, 3]) 1 1,
    -- 3051: del x246
    .del 484,
    -- 3052: x248 += einsum("ijka->kjia", x247)
    .add 479 (.ein [(289, [0, 1, 2, 3])] [2, 1, 0, 3]) 1 1,
    -- 3053: x248 += einsum("ijka->kija", x247) * -1
    .add 479 (.ein [(289, [0, 1, 2, 3])] [2, 0, 1, 3]) (-1) 1,
    -- 3054: del x247
    .del 289,
    -- 3055: l1new_bb += einsum("abij,kija->bk", l2.bbbb, x248)
    .add 80 (.ein [(33, [0, 1, 2, 3]), (479, [4, 2, 3, 0])] [1, 4]) 1 1,
    -- 3056: del x248
    .del 479,
    -- 3057: x406 += einsum("ijkl->jilk", x243)
    .add 345 (.ein [(483, [0, 1, 2, 3])] [1, 0, 3, 2]) 1 1,
    -- 3058: del x243
    .del 483,
    -- 3059: x407 = np.zeros((nocc[1], nocc[1], nvir[1], nvir[1]), dtype=types[float])
    .zeros 485 [4, 4, 5, 5],
    -- 3060: x407 += einsum("abij,ijkl->klab", l2.bbbb, x406)
    .add 485 (.ein [(33, [0, 1, 2, 3]), (345, [2, 3, 4, 5])] [4, 5, 0, 1]) 1 1,
    -- 3061: del x406
    .del 345,
    -- 3062: x408 += einsum("ijab->jiba", x407)
    .add 416 (.ein [(485, [0, 1, 2, 3])] [1, 0, 3, 2]) 1 1,
    -- 3063: del x407
    .del 485,
    -- 3064: x255 = np.zeros((nocc[1], nvir[1], nvir[1], nvir[1]), dtype=types[float])
    .zeros 486 [4, 5, 5, 5],
    -- 3065: x255 += einsum("ia,bcda->ibdc", t1.bb, v.bbbb.vvvv)
    .add 486 (.ein [(8, [0, 1]), (64, [2, 3, 4, 1])] [0, 2, 4, 3]) 1 1,
    -- 3066: x256 = np.zeros((nocc[1], nvir[1], nvir[1], nvir[1]), dtype=types[float])
    .zeros 487 [4, 5, 5, 5],
    -- 3067: x256 += einsum("iabc->iabc", x255) * -1
    .add 487 (.ein [(486, [0, 1, 2, 3])] [0, 1, 2, 3]) (-1) 1,
    -- 3068: del x255
    .del 486,
    -- 3069: x256 += einsum("aibc->iabc", v.bbbb.vovv)
    .add 487 (.ein [(65, [0, 1, 2, 3])] [1, 0, 2, 3]) 1 1,
    -- 3070: x257 = np.zeros((nocc[1], nvir[1], nvir[1], nvir[1]), dtype=types[float])
    .zeros 488 [4, 5, 5, 5],
    -- 3071: x257 += einsum("iabc->iabc", x256) * -1
    .add 488 (.ein [(487, [0, 1, 2, 3])] [0, 1, 2, 3]) (-1) 1,
    -- 3072: x257 += einsum("iabc->ibac", x256)
    .add 488 (.ein [(487, [0, 1, 2, 3])] [0, 2, 1, 3]) 1 1,
    -- 3073: del x256
    .del 487,
    -- 3074: l1new_bb += einsum("abij,iabc->cj", l2.bbbb, x257) * -1
    .add 80 (.ein [(33, [0, 1, 2, 3]), (488, [2, 0, 1, 4])] [4, 3]) (-1) 1,
    -- 3075: del x257
    .del 488,
    -- 3076: x258 += einsum("ai,jkba->jikb", l1.bb, t2.abab) * -1
    .add 92 (.ein [(40, [0, 1]), (13, [2, 3, 4, 0])] [2, 1, 3, 4]) (-1) 1,
    -- 3077: l1new_bb += einsum("iajb,ikja->bk", v.aabb.ovov, x258)
    .add 80 (.ein [(16, [0, 1, 2, 3]), (92, [0, 4, 2, 1])] [3, 4]) 1 1,
    -- 3078: del x258
    .del 92,
    -- 3079: x259 = np.zeros((nocc[1], nocc[1], nocc[1], nvir[1]), dtype=types[float])
    .zeros 489 [4, 4, 4, 5],
    -- 3080: x259 += einsum("ai,jkba->ijkb", l1.bb, t2.bbbb)
    .add 489 (.ein [(40, [0, 1]), (31, [2, 3, 4, 0])] [1, 2, 3, 4]) 1 1,
    -- 3081: x262 = np.zeros((nocc[1], nocc[1], nocc[1], nvir[1]), dtype=types[float])
    .zeros 490 [4, 4, 4, 5],
    -- 3082: x262 += einsum("ijka->ijka", x259)
    .add 490 (.ein [(489, [0, 1, 2, 3])] [0, 1, 2, 3]) 1 1,
    -- 3083: del x259
    .del 489,
    -- 3084: x260 = np.zeros((nocc[1], nocc[1], nocc[1], nocc[1]), dtype=types[float])
    .zeros 491 [4, 4, 4, 4],
    -- 3085: x260 += einsum("abij,klba->ijlk", l2.bbbb, t2.bbbb)
    .add 491 (.ein [(33, [0, 1, 2, 3]), (31, [4, 5, 1, 0])] [2, 3, 5, 4]) 1 1,
    -- 3086: x261 = np.zeros((nocc[1], nocc[1], nocc[1], nvir[1]), dtype=types[float])
    .zeros 492 [4, 4, 4, 5],
    -- 3087: x261 += einsum("ia,jikl->jkla", t1.bb, x260)
    .add 492 (.ein [(8, [0, 1]), (491, [2, 0, 3, 4])] [2, 3, 4, 1]) 1 1,
    -- 3088: x262 += einsum("ijka->ijka", x261)
    .add 490 (.ein [(492, [0, 1, 2, 3])] [0, 1, 2, 3]) 1 1,
    -- 3089: del x261
    .del 492,
    -- 3090: x263 = np.zeros((nocc[1], nocc[1], nocc[1], nvir[1]), dtype=types[float])
    .zeros 493 [4, 4, 4, 5],
    -- 3091: x263 += einsum("ijka->ikja", x262)
    .add 493 (.ein [(490, [0, 1, 2, 3])] [0, 2, 1, 3]) 1 1,
    -- 3092: x263 += einsum("ijka->ijka", x262) * -1
    .add 493 (.ein [(490, [0, 1, 2, 3])] [0, 1, 2, 3]) (-1) 1,
    -- 3093: del x262
    .del 490,
    -- 3094: l1new_bb += einsum("iajb,kija->bk", v.bbbb.ovov, x263)
    .add 80 (.ein [(47, [0, 1, 2, 3]), (493, [4, 0, 2, 1])] [3, 4]) 1 1,
    -- 3095: del x263
    .del 493,
    -- 3096: x271 = np.zeros((nocc[1], nocc[1], nocc[1], nocc[1]), dtype=types[float])
    .zeros 494 [4, 4, 4, 4],
    -- 3097: x271 += einsum("ijkl->jikl", x260) * -1
    .add 494 (.ein [(491, [0, 1, 2, 3])] [1, 0, 2, 3]) (-1) 1,
    -- 3098: x271 += einsum("ijkl->jilk", x260)
    .add 494 (.ein [(491, [0, 1, 2, 3])] [1, 0, 3, 2]) 1 1,
    -- 3099: l1new_bb += einsum("ijka,jlki->al", v.bbbb.ooov, x271) * -1
    .add 80 (.ein [(54, [0, 1, 2, 3]), (494, [1, 4, 2, 0])] [3, 4]) (-1) 1,
    -- 3100: del x271
    .del 494,
    -- 3101: x404 = np.zeros((nocc[1], nocc[1], nvir[1], nvir[1]), dtype=types[float])
    .zeros 495 [4, 4, 5, 5],
    -- 3102: x404 += einsum("iajb,klij->lkba", v.bbbb.ovov, x260)
    .add 495 (.ein [(47, [0, 1, 2, 3]), (491, [4, 5, 0, 2])] [5, 4, 3, 1]) 1 1,
    -- 3103: del x260
    .del 491,
    -- 3104: x408 += einsum("ijab->ijab", x404)
    .add 416 (.ein [(495, [0, 1, 2, 3])] [0, 1, 2, 3]) 1 1,
    -- 3105: del x404
    .del 495,
    -- 3106: l2new_bbbb = np.zeros((nvir[1], nvir[1], nocc[1], nocc[1]), dtype=types[float])
    .zeros 496 [5, 5, 4, 4],
    -- 3107: l2new_bbbb += einsum("ijab->abij", x408)
    .add 496 (.ein [(416, [0, 1, 2, 3])] [2, 3, 0, 1]) 1 1,
    -- 3108: l2new_bbbb += einsum("ijab->baij", x408) * -1
    .add 496 (.ein [(416, [0, 1, 2, 3])] [3, 2, 0, 1]) (-1) 1,
    -- 3109: del x408
    .del 416,
    -- 3110: x264 = np.zeros((nocc[0], nvir[0], nvir[1], nvir[1]), dtype=types[float])
    .zeros 497 [0, 1, 5, 5],
    -- 3111: x264 += einsum("aibc->iabc", v.aabb.vovv)
    .add 497 (.ein [(66, [0, 1, 2, 3])] [1, 0, 2, 3]) 1 1,
    -- 3112: x264 += einsum("ia,bacd->ibcd", t1.aa, v.aabb.vvvv)
    .add 497 (.ein [(10, [0, 1]), (45, [2, 1, 3, 4])] [0, 2, 3, 4]) 1 1,
    -- 3113: l1new_bb += einsum("abij,iabc->cj", l2.abab, x264)
    .add 80 (.ein [(9, [0, 1, 2, 3]), (497, [2, 0, 1, 4])] [4, 3]) 1 1,
    -- 3114: del x264
    .del 497,
    -- 3115: x267 += einsum("ijka->ikja", v.bbbb.ooov) * -1
    .add 346 (.ein [(54, [0, 1, 2, 3])] [0, 2, 1, 3]) (-1) 1,
    -- 3116: l1new_bb += einsum("ijkl,klja->ai", x266, x267) * -1
    .add 80 (.ein [(414, [0, 1, 2, 3]), (346, [2, 3, 1, 4])] [4, 0]) (-1) 1,
    -- 3117: del x266
    .del 414,
    -- 3118: del x267
    .del 346,
    -- 3119: x268 = np.zeros((nocc[0], nocc[1], nvir[0], nvir[1]), dtype=types[float])
    .zeros 498 [0, 4, 1, 5],
    -- 3120: x268 += einsum("ia,jbca->ijcb", t1.aa, v.bbaa.ovvv)
    .add 498 (.ein [(10, [0, 1]), (14, [2, 3, 4, 1])] [0, 2, 4, 3]) 1 1,
    -- 3121: x269 = np.zeros((nocc[0], nocc[1], nvir[0], nvir[1]), dtype=types[float])
    .zeros 499 [0, 4, 1, 5],
    -- 3122: x269 += einsum("ijab->ijab", x268)
    .add 499 (.ein [(498, [0, 1, 2, 3])] [0, 1, 2, 3]) 1 1,
    -- 3123: x373 = np.zeros((nocc[0], nocc[1], nvir[0], nvir[1]), dtype=types[float])
    .zeros 500 [0, 4, 1, 5],
    -- 3124: x373 += einsum("ijab->ijab", x268)
    .add 500 (.ein [(498, [0, 1, 2, 3])] [0, 1, 2, 3]) 1 1,
    -- 3125: x441 += einsum("ijab->ijab", x268)
    .add 250 (.ein [(498, [0, 1, 2, 3])] [0, 1, 2, 3]) 1 1,
    -- 3126: del x268
    .del 498,
    -- 3127: x269 += einsum("iabj->jiba", v.bbaa.ovvo)
    .add 499 (.ein [(46, [0, 1, 2, 3])] [3, 0, 2, 1]) 1 1,
    -- 3128: l1new_bb += einsum("ijka,ikab->bj", x0, x269) * -1
    .add 80 (.ein [(75, [0, 1, 2, 3]), (499, [0, 2, 3, 4])] [4, 1]) (-1) 1,
    -- 3129: del x269
    .del 499,
    -- 3130: x270 = np.zeros((nocc[1], nocc[1], nvir[1], nvir[1]), dtype=types[float])
    .zeros 501 [4, 4, 5, 5],
    -- 3131: x270 += einsum("abij->jiab", l2.bbbb)
    .add 501 (.ein [(33, [0, 1, 2, 3])] [3, 2, 0, 1]) 1 1,
    -- 3132: x270 += einsum("abij->jiba", l2.bbbb) * -1
    .add 501 (.ein [(33, [0, 1, 2, 3])] [3, 2, 1, 0]) (-1) 1,
    -- 3133: x283 = np.zeros((nbos, nocc[1], nvir[1]), dtype=types[float])
    .zeros 502 [2, 4, 5],
    -- 3134: x283 += einsum("wia,ijab->wjb", u11.bb, x270)
    .add 502 (.ein [(48, [0, 1, 2]), (501, [1, 3, 2, 4])] [0, 3, 4]) 1 1,
    -- 3135: x284 = np.zeros((nbos, nocc[1], nvir[1]), dtype=types[float])
    .zeros 503 [2, 4, 5],
    -- 3136: x284 += einsum("wia->wia", x283) * -1
    .add 503 (.ein [(502, [0, 1, 2])] [0, 1, 2]) (-1) 1,
    -- 3137: del x283
    .del 502,
    -- 3138: x412 = np.zeros((nocc[0], nocc[1], nvir[0], nvir[1]), dtype=types[float])
    .zeros 504 [0, 4, 1, 5],
    -- 3139: x412 += einsum("ijab,jkbc->ikac", t2.abab, x270)
    .add 504 (.ein [(13, [0, 1, 2, 3]), (501, [1, 4, 3, 5])] [0, 4, 2, 5]) 1 1,
    -- 3140: x413 = np.zeros((nocc[1], nocc[1], nvir[1], nvir[1]), dtype=types[float])
    .zeros 505 [4, 4, 5, 5],
    -- 3141: x413 += einsum("iajb,ikac->jkbc", v.aabb.ovov, x412) * -1
    .add 505 (.ein [(16, [0, 1, 2, 3]), (504, [0, 4, 1, 5])] [2, 4, 3, 5]) (-1) 1,
    -- 3142: del x412
    .del 504,
    -- 3143: x426 += einsum("ijab->jiba", x413) * -1
    .add 365 (.ein [(505, [0, 1, 2, 3])] [1, 0, 3, 2]) (-1) 1,
    -- 3144: del x413
    .del 505,
    -- 3145: l1new_bb += einsum("ia,ijab->bj", x154, x270) * -1
    .add 80 (.ein [(170, [0, 1]), (501, [0, 2, 1, 3])] [3, 2]) (-1) 1,
    -- 3146: del x154
    .del 170,
    -- 3147: x272 = np.zeros((nocc[1], nocc[1], nvir[1], nvir[1]), dtype=types[float])
    .zeros 506 [4, 4, 5, 5],
    -- 3148: x272 -= einsum("iajb->jiab", v.bbbb.ovov)
    .add 506 (.ein [(47, [0, 1, 2, 3])] [2, 0, 1, 3]) (-1) 1,
    -- 3149: x272 += einsum("iajb->jiba", v.bbbb.ovov)
    .add 506 (.ein [(47, [0, 1, 2, 3])] [2, 0, 3, 1]) 1 1,
    -- 3150: l1new_bb += einsum("ia,ijab->bj", x186, x272) * -1
    .add 80 (.ein [(84, [0, 1]), (506, [0, 2, 1, 3])] [3, 2]) (-1) 1,
    -- 3151: del x272
    .del 506,
    -- 3152: del x186
    .del 84,
    -- 3153: x273 = np.zeros((nbos, nocc[1], nvir[1]), dtype=types[float])
    .zeros 507 [2, 4, 5],
    -- 3154: x273 += einsum("wia,iajb->wjb", u11.aa, v.aabb.ovov)
    .add 507 (.ein [(26, [0, 1, 2]), (16, [1, 2, 3, 4])] [0, 3, 4]) 1 1,
    -- 3155: x275 += einsum("wia->wia", x273)
    .add 294 (.ein [(507, [0, 1, 2])] [0, 1, 2]) 1 1,
    -- 3156: x394 = np.zeros((nbos, nocc[1], nvir[1]), dtype=types[float])
    .zeros 508 [2, 4, 5],
    -- 3157: x394 += einsum("wia->wia", x273)
    .add 508 (.ein [(507, [0, 1, 2])] [0, 1, 2]) 1 1,
    -- 3158: x486 = np.zeros((nbos, nocc[1], nvir[1]), dtype=types[float])
    .zeros 509 [2, 4, 5],
    -- 3159: x486 += einsum("wia->wia", x273)
    .add 509 (.ein [(507, [0, 1, 2])] [0, 1, 2]) 1 1,
    -- 3160: del x273
    .del 507,
    -- 3161: x275 += einsum("wia->wia", gc.bb.bov)
    .add 294 (.ein [(72, [0, 1, 2])] [0, 1, 2]) 1 1,
    -- 3162: x276 += einsum("ia,wja->wji", t1.bb, x275)
    .add 304 (.ein [(8, [0, 1]), (294, [2, 3, 1])] [2, 3, 0]) 1 1,
    -- 3163: l1new_bb += einsum("wij,wja->ai", x174, x275) * -1
    .add 80 (.ein [(404, [0, 1, 2]), (294, [0, 2, 3])] [3, 1]) (-1) 1,
    -- 3164: del x275
    .del 294,
    -- 3165: x276 += einsum("wij->wij", gc.bb.boo)
    .add 304 (.ein [(71, [0, 1, 2])] [0, 1, 2]) 1 1,
    -- 3166: x276 += einsum("wia,iajk->wjk", u11.aa, v.aabb.ovoo)
    .add 304 (.ein [(26, [0, 1, 2]), (11, [1, 2, 3, 4])] [0, 3, 4]) 1 1,
    -- 3167: l1new_bb += einsum("wai,wji->aj", lu11.bb, x276) * -1
    .add 80 (.ein [(34, [0, 1, 2]), (304, [0, 3, 2])] [1, 3]) (-1) 1,
    -- 3168: del x276
    .del 304,
    -- 3169: x277 = np.zeros((nocc[1], nvir[1], nvir[1], nvir[1]), dtype=types[float])
    .zeros 510 [4, 5, 5, 5],
    -- 3170: x277 -= einsum("iabc->ibac", v.bbbb.ovvv)
    .add 510 (.ein [(32, [0, 1, 2, 3])] [0, 2, 1, 3]) (-1) 1,
    -- 3171: x277 += einsum("iabc->ibca", v.bbbb.ovvv)
    .add 510 (.ein [(32, [0, 1, 2, 3])] [0, 2, 3, 1]) 1 1,
    -- 3172: x278 = np.zeros((nbos, nvir[1], nvir[1]), dtype=types[float])
    .zeros 511 [2, 5, 5],
    -- 3173: x278 -= einsum("wia,ibac->wbc", u11.bb, x277)
    .add 511 (.ein [(48, [0, 1, 2]), (510, [1, 3, 2, 4])] [0, 3, 4]) (-1) 1,
    -- 3174: x368 = np.zeros((nocc[1], nocc[1], nvir[1], nvir[1]), dtype=types[float])
    .zeros 512 [4, 4, 5, 5],
    -- 3175: x368 += einsum("ia,jbca->ijbc", t1.bb, x277)
    .add 512 (.ein [(8, [0, 1]), (510, [2, 3, 4, 1])] [0, 2, 3, 4]) 1 1,
    -- 3176: x369 = np.zeros((nocc[1], nocc[1], nvir[1], nvir[1]), dtype=types[float])
    .zeros 513 [4, 4, 5, 5],
    -- 3177: x369 -= einsum("ijab->ijab", x368)
    .add 513 (.ein [(512, [0, 1, 2, 3])] [0, 1, 2, 3]) (-1) 1,
    -- 3178: del x368
    .del 512,
    -- 3179: x381 = np.zeros((nvir[1], nvir[1]), dtype=types[float])
    .zeros 514 [5, 5],
    -- 3180: x381 += einsum("ia,ibac->bc", t1.bb, x277)
    .add 514 (.ein [(8, [0, 1]), (510, [0, 2, 1, 3])] [2, 3]) 1 1,
    -- 3181: x382 -= einsum("ab->ab", x381)
    .add 380 (.ein [(514, [0, 1])] [0, 1]) (-1) 1,
    -- 3182: del x381
    .del 514,
    -- 3183: x383 = np.zeros((nocc[1], nocc[1], nvir[1], nvir[1]), dtype=types[float])
    .zeros 515 [4, 4, 5, 5],
    -- 3184: x383 += einsum("ab,acij->ijcb", x382, l2.bbbb)
    .add 515 (.ein [(380, [0, 1]), (33, [0, 2, 3, 4])] [3, 4, 2, 1]) 1 1,
    -- 3185: del x382
    .del 380,
    -- 3186: x403 += einsum("ijab->jiab", x383)
    .add 225 (.ein [(515, [0, 1, 2, 3])] [1, 0, 2, 3]) 1 1,
    -- 3187: del x383
    .del 515,
    -- 3188: x278 += einsum("wab->wab", gc.bb.bvv)
    .add 511 (.ein [(74, [0, 1, 2])] [0, 1, 2]) 1 1,
    -- 3189: x278 += einsum("wia,iabc->wbc", u11.aa, v.aabb.ovvv)
    .add 511 (.ein [(26, [0, 1, 2]), (19, [1, 2, 3, 4])] [0, 3, 4]) 1 1,
    -- 3190: l1new_bb += einsum("wai,wab->bi", lu11.bb, x278)
    .add 80 (.ein [(34, [0, 1, 2]), (511, [0, 1, 3])] [3, 2]) 1 1,
    -- 3191: del x278
    .del 511,
    -- 3192: x279 = np.zeros((nbos, nocc[1], nvir[1]), dtype=types[float])
    .zeros 516 [2, 4, 5],
    -- 3193: x279 += einsum("wia,abij->wjb", u11.aa, l2.abab)
    .add 516 (.ein [(26, [0, 1, 2]), (9, [2, 3, 1, 4])] [0, 4, 3]) 1 1,
    -- 3194: x282 = np.zeros((nbos, nocc[1], nvir[1]), dtype=types[float])
    .zeros 517 [2, 4, 5],
    -- 3195: x282 += einsum("wia->wia", x279)
    .add 517 (.ein [(516, [0, 1, 2])] [0, 1, 2]) 1 1,
    -- 3196: x284 += einsum("wia->wia", x279)
    .add 503 (.ein [(516, [0, 1, 2])] [0, 1, 2]) 1 1,
    -- 3197: del x279
    .del 516,
    -- 3198: x286 += einsum("ia,wja->wji", t1.bb, x284)
    .add 429 (.ein [(8, [0, 1]), (503, [2, 3, 1])] [2, 3, 0]) 1 1,
    -- 3199: l1new_bb += einsum("wij,wja->ai", x134, x284) * -1
    .add 80 (.ein [(354, [0, 1, 2]), (503, [0, 2, 3])] [3, 1]) (-1) 1,
    -- 3200: del x284
    .del 503,
    -- 3201: del x134
    .del 354,
    -- 3202: x280 = np.zeros((nocc[1], nocc[1], nvir[1], nvir[1]), dtype=types[float])
    .zeros 518 [4, 4, 5, 5],
    -- 3203: x280 += einsum("abij->jiab", l2.bbbb)
    .add 518 (.ein [(33, [0, 1, 2, 3])] [3, 2, 0, 1]) 1 1,
    -- 3204: x280 -= einsum("abij->jiba", l2.bbbb)
    .add 518 (.ein [(33, [0, 1, 2, 3])] [3, 2, 1, 0]) (-1) 1,
    -- 3205: x281 = np.zeros((nbos, nocc[1], nvir[1]), dtype=types[float])
    .zeros 519 [2, 4, 5],
    -- 3206: x281 += einsum("wia,ijab->wjb", u11.bb, x280)
    .add 519 (.ein [(48, [0, 1, 2]), (518, [1, 3, 2, 4])] [0, 3, 4]) 1 1,
    -- 3207: del x280
    .del 518,
    -- 3208: x282 -= einsum("wia->wia", x281)
    .add 517 (.ein [(519, [0, 1, 2])] [0, 1, 2]) (-1) 1,
    -- 3209: del x281
    .del 519,
    -- 3210: x391 = np.zeros((nocc[1], nocc[1], nvir[1], nvir[1]), dtype=types[float])
    .zeros 520 [4, 4, 5, 5],
    -- 3211: x391 += einsum("wia,wjb->ijab", g.bb.bov, x282)
    .add 520 (.ein [(6, [0, 1, 2]), (517, [0, 3, 4])] [1, 3, 2, 4]) 1 1,
    -- 3212: x403 += einsum("ijab->ijab", x391)
    .add 225 (.ein [(520, [0, 1, 2, 3])] [0, 1, 2, 3]) 1 1,
    -- 3213: del x391
    .del 520,
    -- 3214: x489 = np.zeros((nocc[0], nocc[1], nvir[0], nvir[1]), dtype=types[float])
    .zeros 521 [0, 4, 1, 5],
    -- 3215: x489 += einsum("wia,wjb->ijab", g.aa.bov, x282)
    .add 521 (.ein [(2, [0, 1, 2]), (517, [0, 3, 4])] [1, 3, 2, 4]) 1 1,
    -- 3216: l2new_baba += einsum("ijab->baji", x489)
    .add 89 (.ein [(521, [0, 1, 2, 3])] [3, 2, 1, 0]) 1 1,
    -- 3217: l2new_abab += einsum("ijab->abij", x489)
    .add 90 (.ein [(521, [0, 1, 2, 3])] [2, 3, 0, 1]) 1 1,
    -- 3218: del x489
    .del 521,
    -- 3219: l1new_bb += einsum("wab,wia->bi", g.bb.bvv, x282)
    .add 80 (.ein [(7, [0, 1, 2]), (517, [0, 3, 1])] [2, 3]) 1 1,
    -- 3220: del x282
    .del 517,
    -- 3221: x286 += einsum("ai,wja->wij", l1.bb, u11.bb)
    .add 429 (.ein [(40, [0, 1]), (48, [2, 3, 0])] [2, 1, 3]) 1 1,
    -- 3222: l1new_bb += einsum("wia,wji->aj", g.bb.bov, x286) * -1
    .add 80 (.ein [(6, [0, 1, 2]), (429, [0, 3, 1])] [2, 3]) (-1) 1,
    -- 3223: del x286
    .del 429,
    -- 3224: x287 = np.zeros((nocc[1], nocc[1], nvir[1], nvir[1]), dtype=types[float])
    .zeros 522 [4, 4, 5, 5],
    -- 3225: x287 += einsum("iabj->ijba", v.bbbb.ovvo)
    .add 522 (.ein [(55, [0, 1, 2, 3])] [0, 3, 2, 1]) 1 1,
    -- 3226: x287 -= einsum("ijab->ijab", v.bbbb.oovv)
    .add 522 (.ein [(56, [0, 1, 2, 3])] [0, 1, 2, 3]) (-1) 1,
    -- 3227: l1new_bb += einsum("ai,jiab->bj", l1.bb, x287)
    .add 80 (.ein [(40, [0, 1]), (522, [2, 1, 0, 3])] [3, 2]) 1 1,
    -- 3228: lu11new_bb += einsum("wai,jiab->wbj", lu11.bb, x287)
    .add 306 (.ein [(34, [0, 1, 2]), (522, [3, 2, 1, 4])] [0, 4, 3]) 1 1,
    -- 3229: del x287
    .del 522,
    -- 3230: x289 += einsum("ia->ia", f.bb.ov)
    .add 284 (.ein [(49, [0, 1])] [0, 1]) 1 1,
    -- 3231: l1new_bb += einsum("ij,ja->ai", x288, x289) * -1
    .add 80 (.ein [(421, [0, 1]), (284, [1, 2])] [2, 0]) (-1) 1,
    -- 3232: del x288
    .del 421,
    -- 3233: del x289
    .del 284,
    -- 3234: x290 = np.zeros((nocc[0], nocc[0], nvir[0], nvir[0]), dtype=types[float])
    .zeros 523 [0, 0, 1, 1],
    -- 3235: x290 += einsum("wia,wbj->ijab", gc.aa.bov, lu11.aa)
    .add 523 (.ein [(68, [0, 1, 2]), (41, [0, 3, 4])] [1, 4, 2, 3]) 1 1,
    -- 3236: x333 += einsum("ijab->ijab", x290)
    .add 87 (.ein [(523, [0, 1, 2, 3])] [0, 1, 2, 3]) 1 1,
    -- 3237: del x290
    .del 523,
    -- 3238: x291 = np.zeros((nocc[0], nocc[0], nvir[0], nvir[0]), dtype=types[float])
    .zeros 524 [0, 0, 1, 1],
    -- 3239: x291 += einsum("ai,jbac->ijbc", l1.aa, v.aaaa.ovvv)
    .add 524 (.ein [(17, [0, 1]), (23, [2, 3, 0, 4])] [1, 2, 3, 4]) 1 1,
    -- 3240: x333 -= einsum("ijab->ijab", x291)
    .add 87 (.ein [(524, [0, 1, 2, 3])] [0, 1, 2, 3]) (-1) 1,
    -- 3241: del x291
    .del 524,
    -- 3242: x297 = np.zeros((nocc[0], nocc[0], nvir[0], nvir[0]), dtype=types[float])
    .zeros 525 [0, 0, 1, 1],
    -- 3243: x297 += einsum("abij->jiab", l2.aaaa)
    .add 525 (.ein [(25, [0, 1, 2, 3])] [3, 2, 0, 1]) 1 1,
    -- 3244: x297 -= einsum("abij->jiba", l2.aaaa)
    .add 525 (.ein [(25, [0, 1, 2, 3])] [3, 2, 1, 0]) (-1) 1,
    -- 3245: x298 = np.zeros((nocc[0], nvir[0], nvir[0], nvir[0]), dtype=types[float])
    .zeros 526 [0, 1, 1, 1],
    -- 3246: x298 -= einsum("iabc->ibac", v.aaaa.ovvv)
    .add 526 (.ein [(23, [0, 1, 2, 3])] [0, 2, 1, 3]) (-1) 1,
    -- 3247: x298 += einsum("iabc->ibca", v.aaaa.ovvv)
    .add 526 (.ein [(23, [0, 1, 2, 3])] [0, 2, 3, 1]) 1 1,
    -- 3248: x299 = np.zeros((nocc[0], nocc[0], nvir[0], nvir[0]), dtype=types[float])
    .zeros 527 [0, 0, 1, 1],
    -- 3249: x299 += einsum("ia,jbca->ijbc", t1.aa, x298)
    .add 527 (.ein [(10, [0, 1]), (526, [2, 3, 4, 1])] [0, 2, 3, 4]) 1 1,
    -- 3250: x300 = np.zeros((nocc[0], nocc[0], nvir[0], nvir[0]), dtype=types[float])
    .zeros 528 [0, 0, 1, 1],
    -- 3251: x300 -= einsum("ijab->ijab", x299)
    .add 528 (.ein [(527, [0, 1, 2, 3])] [0, 1, 2, 3]) (-1) 1,
    -- 3252: del x299
    .del 527,
    -- 3253: x300 += einsum("iabj->jiba", v.aaaa.ovvo)
    .add 528 (.ein [(28, [0, 1, 2, 3])] [3, 0, 2, 1]) 1 1,
    -- 3254: x300 -= einsum("ijab->jiab", v.aaaa.oovv)
    .add 528 (.ein [(29, [0, 1, 2, 3])] [1, 0, 2, 3]) (-1) 1,
    -- 3255: x301 = np.zeros((nocc[0], nocc[0], nvir[0], nvir[0]), dtype=types[float])
    .zeros 529 [0, 0, 1, 1],
    -- 3256: x301 += einsum("ijab,ikbc->jkac", x297, x300)
    .add 529 (.ein [(525, [0, 1, 2, 3]), (528, [0, 4, 3, 5])] [1, 4, 2, 5]) 1 1,
    -- 3257: del x297
    .del 525,
    -- 3258: del x300
    .del 528,
    -- 3259: x333 += einsum("ijab->ijab", x301)
    .add 87 (.ein [(529, [0, 1, 2, 3])] [0, 1, 2, 3]) 1 1,
    -- 3260: del x301
    .del 529,
    -- 3261: x302 = np.zeros((nocc[1], nocc[1], nvir[1], nvir[1]), dtype=types[float])
    .zeros 530 [4, 4, 5, 5],
    -- 3262: x302 += einsum("ijab->jiab", t2.bbbb)
    .add 530 (.ein [(31, [0, 1, 2, 3])] [1, 0, 2, 3]) 1 1,
    -- 3263: x302 -= einsum("ijab->jiba", t2.bbbb)
    .add 530 (.ein [(31, [0, 1, 2, 3])] [1, 0, 3, 2]) (-1) 1,
    -- 3264: x303 = np.zeros((nocc[0], nocc[1], nvir[0], nvir[1]), dtype=types[float])
    .zeros 531 [0, 4, 1, 5],
    -- 3265: x303 += einsum("iajb,jkbc->ikac", v.aabb.ovov, x302)
    .add 531 (.ein [(16, [0, 1, 2, 3]), (530, [2, 4, 3, 5])] [0, 4, 1, 5]) 1 1,
    -- 3266: del x302
    .del 530,
    -- 3267: x304 -= einsum("ijab->ijab", x303)
    .add 202 (.ein [(531, [0, 1, 2, 3])] [0, 1, 2, 3]) (-1) 1,
    -- 3268: del x303
    .del 531,
    -- 3269: x304 += einsum("iabj->ijab", v.aabb.ovvo)
    .add 202 (.ein [(37, [0, 1, 2, 3])] [0, 3, 1, 2]) 1 1,
    -- 3270: x305 = np.zeros((nocc[0], nocc[0], nvir[0], nvir[0]), dtype=types[float])
    .zeros 532 [0, 0, 1, 1],
    -- 3271: x305 += einsum("abij,kjcb->ikac", l2.abab, x304)
    .add 532 (.ein [(9, [0, 1, 2, 3]), (202, [4, 3, 5, 1])] [2, 4, 0, 5]) 1 1,
    -- 3272: del x304
    .del 202,
    -- 3273: x333 += einsum("ijab->ijab", x305)
    .add 87 (.ein [(532, [0, 1, 2, 3])] [0, 1, 2, 3]) 1 1,
    -- 3274: del x305
    .del 532,
    -- 3275: x308 = np.zeros((nvir[0], nvir[0]), dtype=types[float])
    .zeros 533 [1, 1],
    -- 3276: x308 += einsum("wia,wib->ab", g.aa.bov, u11.aa)
    .add 533 (.ein [(2, [0, 1, 2]), (26, [0, 1, 3])] [2, 3]) 1 1,
    -- 3277: x309 -= einsum("ab->ba", x308)
    .add 324 (.ein [(533, [0, 1])] [1, 0]) (-1) 1,
    -- 3278: x469 += einsum("ab->ba", x308) * -1
    .add 154 (.ein [(533, [0, 1])] [1, 0]) (-1) 1,
    -- 3279: x517 += einsum("ab->ba", x308) * -1
    .add 122 (.ein [(533, [0, 1])] [1, 0]) (-1) 1,
    -- 3280: del x308
    .del 533,
    -- 3281: x309 += einsum("ab->ab", f.aa.vv)
    .add 324 (.ein [(51, [0, 1])] [0, 1]) 1 1,
    -- 3282: x310 = np.zeros((nocc[0], nocc[0], nvir[0], nvir[0]), dtype=types[float])
    .zeros 534 [0, 0, 1, 1],
    -- 3283: x310 += einsum("ab,acij->ijcb", x309, l2.aaaa)
    .add 534 (.ein [(324, [0, 1]), (25, [0, 2, 3, 4])] [3, 4, 2, 1]) 1 1,
    -- 3284: del x309
    .del 324,
    -- 3285: x333 -= einsum("ijab->jiba", x310)
    .add 87 (.ein [(534, [0, 1, 2, 3])] [1, 0, 3, 2]) (-1) 1,
    -- 3286: del x310
    .del 534,
    -- 3287: x314 += einsum("ia->ia", f.aa.ov)
    .add 101 (.ein [(20, [0, 1])] [0, 1]) 1 1,
    -- 3288: x315 = np.zeros((nocc[0], nocc[0]), dtype=types[float])
    .zeros 535 [0, 0],
    -- 3289: x315 += einsum("ia,ja->ij", t1.aa, x314)
    .add 535 (.ein [(10, [0, 1]), (101, [2, 1])] [0, 2]) 1 1,
    -- 3290: x316 += einsum("ij->ji", x315)
    .add 313 (.ein [(535, [0, 1])] [1, 0]) 1 1,
    -- 3291: del x315
    .del 535,
    -- 3292: x328 = np.zeros((nocc[0], nocc[0], nvir[0], nvir[0]), dtype=types[float])
    .zeros 536 [0, 0, 1, 1],
    -- 3293: x328 += einsum("ia,jkib->jkba", x314, x54)
    .add 536 (.ein [(101, [0, 1]), (230, [2, 3, 0, 4])] [2, 3, 4, 1]) 1 1,
    -- 3294: del x54
    .del 230,
    -- 3295: x333 += einsum("ijab->ijba", x328)
    .add 87 (.ein [(536, [0, 1, 2, 3])] [0, 1, 3, 2]) 1 1,
    -- 3296: del x328
    .del 536,
    -- 3297: x333 += einsum("ai,jb->jiba", l1.aa, x314)
    .add 87 (.ein [(17, [0, 1]), (101, [2, 3])] [2, 1, 3, 0]) 1 1,
    -- 3298: lu11new_aa -= einsum("ia,wji->waj", x314, x157)
    .add 195 (.ein [(101, [0, 1]), (387, [2, 3, 0])] [2, 1, 3]) (-1) 1,
    -- 3299: del x314
    .del 101,
    -- 3300: x316 += einsum("ij->ij", f.aa.oo)
    .add 313 (.ein [(50, [0, 1])] [0, 1]) 1 1,
    -- 3301: x317 = np.zeros((nocc[0], nocc[0], nvir[0], nvir[0]), dtype=types[float])
    .zeros 537 [0, 0, 1, 1],
    -- 3302: x317 += einsum("ij,abjk->kiab", x316, l2.aaaa)
    .add 537 (.ein [(313, [0, 1]), (25, [2, 3, 1, 4])] [4, 0, 2, 3]) 1 1,
    -- 3303: del x316
    .del 313,
    -- 3304: x333 += einsum("ijab->jiba", x317)
    .add 87 (.ein [(537, [0, 1, 2, 3])] [1, 0, 3, 2]) 1 1,
    -- 3305: del x317
    .del 537,
    -- 3306: x322 = np.zeros((nocc[0], nocc[0], nvir[0], nvir[0]), dtype=types[float])
    .zeros 538 [0, 0, 1, 1],
    -- 3307: x322 -= einsum("iajb->jiab", v.aaaa.ovov)
    .add 538 (.ein [(24, [0, 1, 2, 3])] [2, 0, 1, 3]) (-1) 1,
    -- 3308: x322 += einsum("iajb->jiba", v.aaaa.ovov)
    .add 538 (.ein [(24, [0, 1, 2, 3])] [2, 0, 3, 1]) 1 1,
    -- 3309: x323 = np.zeros((nbos, nocc[0], nvir[0]), dtype=types[float])
    .zeros 539 [2, 0, 1],
    -- 3310: x323 += einsum("wia,ijba->wjb", u11.aa, x322)
    .add 539 (.ein [(26, [0, 1, 2]), (538, [1, 3, 4, 2])] [0, 3, 4]) 1 1,
    -- 3311: x324 -= einsum("wia->wia", x323)
    .add 441 (.ein [(539, [0, 1, 2])] [0, 1, 2]) (-1) 1,
    -- 3312: x325 = np.zeros((nocc[0], nocc[0], nvir[0], nvir[0]), dtype=types[float])
    .zeros 540 [0, 0, 1, 1],
    -- 3313: x325 += einsum("wai,wjb->ijab", lu11.aa, x324)
    .add 540 (.ein [(41, [0, 1, 2]), (441, [0, 3, 4])] [2, 3, 1, 4]) 1 1,
    -- 3314: del x324
    .del 441,
    -- 3315: x333 += einsum("ijab->ijab", x325)
    .add 87 (.ein [(540, [0, 1, 2, 3])] [0, 1, 2, 3]) 1 1,
    -- 3316: del x325
    .del 540,
    -- 3317: x484 -= einsum("wia->wia", x323)
    .add 442 (.ein [(539, [0, 1, 2])] [0, 1, 2]) (-1) 1,
    -- 3318: del x323
    .del 539,
    -- 3319: x331 = np.zeros((nocc[0], nvir[0]), dtype=types[float])
    .zeros 541 [0, 1],
    -- 3320: x331 += einsum("ia,ijba->jb", t1.aa, x322)
    .add 541 (.ein [(10, [0, 1]), (538, [0, 2, 3, 1])] [2, 3]) 1 1,
    -- 3321: del x322
    .del 538,
    -- 3322: x332 -= einsum("ia->ia", x331)
    .add 116 (.ein [(541, [0, 1])] [0, 1]) (-1) 1,
    -- 3323: x333 += einsum("ai,jb->ijab", l1.aa, x332)
    .add 87 (.ein [(17, [0, 1]), (116, [2, 3])] [1, 2, 0, 3]) 1 1,
    -- 3324: del x332
    .del 116,
    -- 3325: x495 -= einsum("ia->ia", x331)
    .add 102 (.ein [(541, [0, 1])] [0, 1]) (-1) 1,
    -- 3326: del x331
    .del 541,
    -- 3327: x329 -= einsum("ijka->jika", v.aaaa.ooov)
    .add 135 (.ein [(27, [0, 1, 2, 3])] [1, 0, 2, 3]) (-1) 1,
    -- 3328: x330 = np.zeros((nocc[0], nocc[0], nvir[0], nvir[0]), dtype=types[float])
    .zeros 542 [0, 0, 1, 1],
    -- 3329: x330 += einsum("ai,ijkb->jkab", l1.aa, x329)
    .add 542 (.ein [(17, [0, 1]), (135, [1, 2, 3, 4])] [2, 3, 0, 4]) 1 1,
    -- 3330: del x329
    .del 135,
    -- 3331: x333 += einsum("ijab->ijab", x330)
    .add 87 (.ein [(542, [0, 1, 2, 3])] [0, 1, 2, 3]) 1 1,
    -- 3332: del x330
    .del 542,
    -- 3333: l2new_aaaa += einsum("ijab->abij", x333)
    .add 269 (.ein [(87, [0, 1, 2, 3])] [2, 3, 0, 1]) 1 1,
    -- 3334: l2new_aaaa -= einsum("ijab->baij", x333)
    .add 269 (.ein [(87, [0, 1, 2, 3])] [3, 2, 0, 1]) (-1) 1,
    -- 3335: l2new_aaaa -= einsum("ijab->abji", x333)
    .add 269 (.ein [(87, [0, 1, 2, 3])] [2, 3, 1, 0]) (-1) 1,
    -- 3336: l2new_aaaa += einsum("ijab->baji", x333)
    .add 269 (.ein [(87, [0, 1, 2, 3])] [3, 2, 1, 0]) 1 1,
    -- 3337: del x333
    .del 87,
    -- 3338: x334 = np.zeros((nocc[0], nocc[0], nvir[0], nvir[0]), dtype=types[float])
    .zeros 543 [0, 0, 1, 1],
    -- 3339: x334 += einsum("abij,kjli->klba", l2.aaaa, v.aaaa.oooo)
    .add 543 (.ein [(25, [0, 1, 2, 3]), (30, [4, 3, 5, 2])] [4, 5, 1, 0]) 1 1,
    -- 3340: x336 = np.zeros((nocc[0], nocc[0], nvir[0], nvir[0]), dtype=types[float])
    .zeros 544 [0, 0, 1, 1],
    -- 3341: x336 += einsum("ijab->jiba", x334)
    .add 544 (.ein [(543, [0, 1, 2, 3])] [1, 0, 3, 2]) 1 1,
    -- 3342: del x334
    .del 543,
    -- 3343: x335 = np.zeros((nocc[0], nocc[0], nvir[0], nvir[0]), dtype=types[float])
    .zeros 545 [0, 0, 1, 1],
    -- 3344: x335 += einsum("abij,acbd->ijcd", l2.aaaa, v.aaaa.vvvv)
    .add 545 (.ein [(25, [0, 1, 2, 3]), (42, [0, 4, 1, 5])] [2, 3, 4, 5]) 1 1,
    -- 3345: x336 += einsum("ijab->jiba", x335)
    .add 544 (.ein [(545, [0, 1, 2, 3])] [1, 0, 3, 2]) 1 1,
    -- 3346: del x335
    .del 545,
    -- 3347: l2new_aaaa += einsum("ijab->baij", x336) * -1
    .add 269 (.ein [(544, [0, 1, 2, 3])] [3, 2, 0, 1]) (-1) 1,
    -- 3348: l2new_aaaa += einsum("ijab->abij", x336)
    .add 269 (.ein [(544, [0, 1, 2, 3])] [2, 3, 0, 1]) 1 1,
    -- 3349: del x336
    .del 544,
    -- 3350: x337 = np.zeros((nocc[0], nocc[0], nvir[0], nvir[0]), dtype=types[float])
    .zeros 546 [0, 0, 1, 1],
    -- 3351: x337 += einsum("ijab,kcjb->ikac", t2.abab, v.aabb.ovov)
    .add 546 (.ein [(13, [0, 1, 2, 3]), (16, [4, 5, 1, 3])] [0, 4, 2, 5]) 1 1,
    -- 3352: x339 += einsum("ijab->ijab", x337)
    .add 150 (.ein [(546, [0, 1, 2, 3])] [0, 1, 2, 3]) 1 1,
    -- 3353: x340 = np.zeros((nocc[0], nocc[0], nvir[0], nvir[0]), dtype=types[float])
    .zeros 547 [0, 0, 1, 1],
    -- 3354: x340 += einsum("ijab,ikca->kjcb", x339, x41)
    .add 547 (.ein [(150, [0, 1, 2, 3]), (207, [0, 4, 5, 2])] [4, 1, 5, 3]) 1 1,
    -- 3355: del x339
    .del 150,
    -- 3356: x355 += einsum("ijab->ijab", x340) * -1
    .add 206 (.ein [(547, [0, 1, 2, 3])] [0, 1, 2, 3]) (-1) 1,
    -- 3357: del x340
    .del 547,
    -- 3358: x449 += einsum("ijab->jiab", x337)
    .add 212 (.ein [(546, [0, 1, 2, 3])] [1, 0, 2, 3]) 1 1,
    -- 3359: del x337
    .del 546,
    -- 3360: x349 = np.zeros((nvir[0], nvir[0]), dtype=types[float])
    .zeros 548 [1, 1],
    -- 3361: x349 += einsum("ijab,icjb->ac", t2.abab, v.aabb.ovov)
    .add 548 (.ein [(13, [0, 1, 2, 3]), (16, [0, 4, 1, 3])] [2, 4]) 1 1,
    -- 3362: x351 += einsum("ab->ab", x349)
    .add 152 (.ein [(548, [0, 1])] [0, 1]) 1 1,
    -- 3363: x352 = np.zeros((nocc[0], nocc[0], nvir[0], nvir[0]), dtype=types[float])
    .zeros 549 [0, 0, 1, 1],
    -- 3364: x352 += einsum("ab,acij->ijcb", x351, l2.aaaa)
    .add 549 (.ein [(152, [0, 1]), (25, [0, 2, 3, 4])] [3, 4, 2, 1]) 1 1,
    -- 3365: del x351
    .del 152,
    -- 3366: x355 += einsum("ijab->jiab", x352)
    .add 206 (.ein [(549, [0, 1, 2, 3])] [1, 0, 2, 3]) 1 1,
    -- 3367: del x352
    .del 549,
    -- 3368: l2new_aaaa += einsum("ijab->abij", x355) * -1
    .add 269 (.ein [(206, [0, 1, 2, 3])] [2, 3, 0, 1]) (-1) 1,
    -- 3369: l2new_aaaa += einsum("ijab->baij", x355)
    .add 269 (.ein [(206, [0, 1, 2, 3])] [3, 2, 0, 1]) 1 1,
    -- 3370: l2new_aaaa += einsum("ijab->abji", x355)
    .add 269 (.ein [(206, [0, 1, 2, 3])] [2, 3, 1, 0]) 1 1,
    -- 3371: l2new_aaaa += einsum("ijab->baji", x355) * -1
    .add 269 (.ein [(206, [0, 1, 2, 3])] [3, 2, 1, 0]) (-1) 1,
    -- 3372: del x355
    .del 206,
    -- 3373: x469 += einsum("ab->ab", x349) * -1
    .add 154 (.ein [(548, [0, 1])] [0, 1]) (-1) 1,
    -- 3374: x517 += einsum("ab->ab", x349) * -1
    .add 122 (.ein [(548, [0, 1])] [0, 1]) (-1) 1,
    -- 3375: del x349
    .del 548,
    -- 3376: x361 = np.zeros((nocc[1], nocc[1], nvir[1], nvir[1]), dtype=types[float])
    .zeros 550 [4, 4, 5, 5],
    -- 3377: x361 += einsum("wia,wbj->ijab", gc.bb.bov, lu11.bb)
    .add 550 (.ein [(72, [0, 1, 2]), (34, [0, 3, 4])] [1, 4, 2, 3]) 1 1,
    -- 3378: x403 += einsum("ijab->ijab", x361)
    .add 225 (.ein [(550, [0, 1, 2, 3])] [0, 1, 2, 3]) 1 1,
    -- 3379: del x361
    .del 550,
    -- 3380: x362 = np.zeros((nocc[1], nocc[1], nvir[1], nvir[1]), dtype=types[float])
    .zeros 551 [4, 4, 5, 5],
    -- 3381: x362 += einsum("ai,jbac->ijbc", l1.bb, v.bbbb.ovvv)
    .add 551 (.ein [(40, [0, 1]), (32, [2, 3, 0, 4])] [1, 2, 3, 4]) 1 1,
    -- 3382: x403 -= einsum("ijab->ijab", x362)
    .add 225 (.ein [(551, [0, 1, 2, 3])] [0, 1, 2, 3]) (-1) 1,
    -- 3383: del x362
    .del 551,
    -- 3384: x369 += einsum("iabj->jiba", v.bbbb.ovvo)
    .add 513 (.ein [(55, [0, 1, 2, 3])] [3, 0, 2, 1]) 1 1,
    -- 3385: x369 -= einsum("ijab->jiab", v.bbbb.oovv)
    .add 513 (.ein [(56, [0, 1, 2, 3])] [1, 0, 2, 3]) (-1) 1,
    -- 3386: x370 = np.zeros((nocc[1], nocc[1], nvir[1], nvir[1]), dtype=types[float])
    .zeros 552 [4, 4, 5, 5],
    -- 3387: x370 += einsum("ijab,ikac->jkbc", x224, x369)
    .add 552 (.ein [(466, [0, 1, 2, 3]), (513, [0, 4, 2, 5])] [1, 4, 3, 5]) 1 1,
    -- 3388: del x369
    .del 513,
    -- 3389: x403 += einsum("ijab->ijab", x370)
    .add 225 (.ein [(552, [0, 1, 2, 3])] [0, 1, 2, 3]) 1 1,
    -- 3390: del x370
    .del 552,
    -- 3391: x371 = np.zeros((nocc[0], nocc[0], nvir[0], nvir[0]), dtype=types[float])
    .zeros 553 [0, 0, 1, 1],
    -- 3392: x371 -= einsum("ijab->jiab", t2.aaaa)
    .add 553 (.ein [(21, [0, 1, 2, 3])] [1, 0, 2, 3]) (-1) 1,
    -- 3393: x371 += einsum("ijab->jiba", t2.aaaa)
    .add 553 (.ein [(21, [0, 1, 2, 3])] [1, 0, 3, 2]) 1 1,
    -- 3394: x372 = np.zeros((nocc[0], nocc[1], nvir[0], nvir[1]), dtype=types[float])
    .zeros 554 [0, 4, 1, 5],
    -- 3395: x372 += einsum("iajb,ikca->kjcb", v.aabb.ovov, x371)
    .add 554 (.ein [(16, [0, 1, 2, 3]), (553, [0, 4, 5, 1])] [4, 2, 5, 3]) 1 1,
    -- 3396: del x371
    .del 553,
    -- 3397: x373 -= einsum("ijab->ijab", x372)
    .add 500 (.ein [(554, [0, 1, 2, 3])] [0, 1, 2, 3]) (-1) 1,
    -- 3398: del x372
    .del 554,
    -- 3399: x373 += einsum("iabj->jiba", v.bbaa.ovvo)
    .add 500 (.ein [(46, [0, 1, 2, 3])] [3, 0, 2, 1]) 1 1,
    -- 3400: x374 = np.zeros((nocc[1], nocc[1], nvir[1], nvir[1]), dtype=types[float])
    .zeros 555 [4, 4, 5, 5],
    -- 3401: x374 += einsum("abij,ikac->jkbc", l2.abab, x373)
    .add 555 (.ein [(9, [0, 1, 2, 3]), (500, [2, 4, 0, 5])] [3, 4, 1, 5]) 1 1,
    -- 3402: del x373
    .del 500,
    -- 3403: x403 += einsum("ijab->ijab", x374)
    .add 225 (.ein [(555, [0, 1, 2, 3])] [0, 1, 2, 3]) 1 1,
    -- 3404: del x374
    .del 555,
    -- 3405: x376 = np.zeros((nocc[1], nocc[1], nocc[1], nvir[1]), dtype=types[float])
    .zeros 556 [4, 4, 4, 5],
    -- 3406: x376 += einsum("ijka->ikja", v.bbbb.ooov)
    .add 556 (.ein [(54, [0, 1, 2, 3])] [0, 2, 1, 3]) 1 1,
    -- 3407: x376 -= einsum("ijka->kija", v.bbbb.ooov)
    .add 556 (.ein [(54, [0, 1, 2, 3])] [2, 0, 1, 3]) (-1) 1,
    -- 3408: x377 = np.zeros((nocc[1], nocc[1], nvir[1], nvir[1]), dtype=types[float])
    .zeros 557 [4, 4, 5, 5],
    -- 3409: x377 += einsum("ijka,lkjb->ilab", x375, x376)
    .add 557 (.ein [(418, [0, 1, 2, 3]), (556, [4, 2, 1, 5])] [0, 4, 3, 5]) 1 1,
    -- 3410: del x375
    .del 418,
    -- 3411: x403 += einsum("ijab->ijab", x377)
    .add 225 (.ein [(557, [0, 1, 2, 3])] [0, 1, 2, 3]) 1 1,
    -- 3412: del x377
    .del 557,
    -- 3413: x388 = np.zeros((nocc[1], nocc[1]), dtype=types[float])
    .zeros 558 [4, 4],
    -- 3414: x388 += einsum("ia,ijka->jk", t1.bb, x376)
    .add 558 (.ein [(8, [0, 1]), (556, [0, 2, 3, 1])] [2, 3]) 1 1,
    -- 3415: x389 -= einsum("ij->ij", x388)
    .add 362 (.ein [(558, [0, 1])] [0, 1]) (-1) 1,
    -- 3416: del x388
    .del 558,
    -- 3417: x390 = np.zeros((nocc[1], nocc[1], nvir[1], nvir[1]), dtype=types[float])
    .zeros 559 [4, 4, 5, 5],
    -- 3418: x390 += einsum("ij,abjk->kiab", x389, l2.bbbb)
    .add 559 (.ein [(362, [0, 1]), (33, [2, 3, 1, 4])] [4, 0, 2, 3]) 1 1,
    -- 3419: del x389
    .del 362,
    -- 3420: x403 -= einsum("ijab->ijba", x390)
    .add 225 (.ein [(559, [0, 1, 2, 3])] [0, 1, 3, 2]) (-1) 1,
    -- 3421: del x390
    .del 559,
    -- 3422: l2new_baba += einsum("ijka,lkjb->bali", x0, x376)
    .add 89 (.ein [(75, [0, 1, 2, 3]), (556, [4, 2, 1, 5])] [5, 3, 4, 0]) 1 1,
    -- 3423: del x376
    .del 556,
    -- 3424: x378 = np.zeros((nvir[1], nvir[1]), dtype=types[float])
    .zeros 560 [5, 5],
    -- 3425: x378 += einsum("wia,wib->ab", g.bb.bov, u11.bb)
    .add 560 (.ein [(6, [0, 1, 2]), (48, [0, 1, 3])] [2, 3]) 1 1,
    -- 3426: x379 -= einsum("ab->ba", x378)
    .add 378 (.ein [(560, [0, 1])] [1, 0]) (-1) 1,
    -- 3427: x472 += einsum("ab->ba", x378) * -1
    .add 298 (.ein [(560, [0, 1])] [1, 0]) (-1) 1,
    -- 3428: x525 += einsum("ab->ba", x378) * -1
    .add 292 (.ein [(560, [0, 1])] [1, 0]) (-1) 1,
    -- 3429: del x378
    .del 560,
    -- 3430: x379 += einsum("ab->ab", f.bb.vv)
    .add 378 (.ein [(58, [0, 1])] [0, 1]) 1 1,
    -- 3431: x380 = np.zeros((nocc[1], nocc[1], nvir[1], nvir[1]), dtype=types[float])
    .zeros 561 [4, 4, 5, 5],
    -- 3432: x380 += einsum("ab,acij->ijcb", x379, l2.bbbb)
    .add 561 (.ein [(378, [0, 1]), (33, [0, 2, 3, 4])] [3, 4, 2, 1]) 1 1,
    -- 3433: del x379
    .del 378,
    -- 3434: x403 -= einsum("ijab->jiba", x380)
    .add 225 (.ein [(561, [0, 1, 2, 3])] [1, 0, 3, 2]) (-1) 1,
    -- 3435: del x380
    .del 561,
    -- 3436: x384 += einsum("ia->ia", f.bb.ov)
    .add 280 (.ein [(49, [0, 1])] [0, 1]) 1 1,
    -- 3437: x385 = np.zeros((nocc[1], nocc[1]), dtype=types[float])
    .zeros 562 [4, 4],
    -- 3438: x385 += einsum("ia,ja->ij", t1.bb, x384)
    .add 562 (.ein [(8, [0, 1]), (280, [2, 1])] [0, 2]) 1 1,
    -- 3439: x386 += einsum("ij->ji", x385)
    .add 359 (.ein [(562, [0, 1])] [1, 0]) 1 1,
    -- 3440: del x385
    .del 562,
    -- 3441: x398 = np.zeros((nocc[1], nocc[1], nvir[1], nvir[1]), dtype=types[float])
    .zeros 563 [4, 4, 5, 5],
    -- 3442: x398 += einsum("ia,jkib->jkba", x384, x177)
    .add 563 (.ein [(280, [0, 1]), (407, [2, 3, 0, 4])] [2, 3, 4, 1]) 1 1,
    -- 3443: del x177
    .del 407,
    -- 3444: x403 += einsum("ijab->ijba", x398)
    .add 225 (.ein [(563, [0, 1, 2, 3])] [0, 1, 3, 2]) 1 1,
    -- 3445: del x398
    .del 563,
    -- 3446: x403 += einsum("ai,jb->jiba", l1.bb, x384)
    .add 225 (.ein [(40, [0, 1]), (280, [2, 3])] [2, 1, 3, 0]) 1 1,
    -- 3447: lu11new_bb -= einsum("ia,wji->waj", x384, x174)
    .add 306 (.ein [(280, [0, 1]), (404, [2, 3, 0])] [2, 1, 3]) (-1) 1,
    -- 3448: del x384
    .del 280,
    -- 3449: x386 += einsum("ij->ij", f.bb.oo)
    .add 359 (.ein [(57, [0, 1])] [0, 1]) 1 1,
    -- 3450: x387 = np.zeros((nocc[1], nocc[1], nvir[1], nvir[1]), dtype=types[float])
    .zeros 564 [4, 4, 5, 5],
    -- 3451: x387 += einsum("ij,abjk->kiab", x386, l2.bbbb)
    .add 564 (.ein [(359, [0, 1]), (33, [2, 3, 1, 4])] [4, 0, 2, 3]) 1 1,
    -- 3452: del x386
    .del 359,
    -- 3453: x403 += einsum("ijab->jiba", x387)
    .add 225 (.ein [(564, [0, 1, 2, 3])] [1, 0, 3, 2]) 1 1,
    -- 3454: del x387
    .del 564,
    -- 3455: x392 = np.zeros((nocc[1], nocc[1], nvir[1], nvir[1]), dtype=types[float])
    .zeros 565 [4, 4, 5, 5],
    -- 3456: x392 += einsum("iajb->jiab", v.bbbb.ovov)
    .add 565 (.ein [(47, [0, 1, 2, 3])] [2, 0, 1, 3]) 1 1,
    -- 3457: x392 -= einsum("iajb->jiba", v.bbbb.ovov)
    .add 565 (.ein [(47, [0, 1, 2, 3])] [2, 0, 3, 1]) (-1) 1,
    -- 3458: x393 = np.zeros((nbos, nocc[1], nvir[1]), dtype=types[float])
    .zeros 566 [2, 4, 5],
    -- 3459: x393 += einsum("wia,ijab->wjb", u11.bb, x392)
    .add 566 (.ein [(48, [0, 1, 2]), (565, [1, 3, 2, 4])] [0, 3, 4]) 1 1,
    -- 3460: x394 -= einsum("wia->wia", x393)
    .add 508 (.ein [(566, [0, 1, 2])] [0, 1, 2]) (-1) 1,
    -- 3461: x395 = np.zeros((nocc[1], nocc[1], nvir[1], nvir[1]), dtype=types[float])
    .zeros 567 [4, 4, 5, 5],
    -- 3462: x395 += einsum("wai,wjb->ijab", lu11.bb, x394)
    .add 567 (.ein [(34, [0, 1, 2]), (508, [0, 3, 4])] [2, 3, 1, 4]) 1 1,
    -- 3463: del x394
    .del 508,
    -- 3464: x403 += einsum("ijab->ijab", x395)
    .add 225 (.ein [(567, [0, 1, 2, 3])] [0, 1, 2, 3]) 1 1,
    -- 3465: del x395
    .del 567,
    -- 3466: x486 -= einsum("wia->wia", x393)
    .add 509 (.ein [(566, [0, 1, 2])] [0, 1, 2]) (-1) 1,
    -- 3467: del x393
    .del 566,
    -- 3468: x401 = np.zeros((nocc[1], nvir[1]), dtype=types[float])
    .zeros 568 [4, 5],
    -- 3469: x401 += einsum("ia,ijab->jb", t1.bb, x392)
    .add 568 (.ein [(8, [0, 1]), (565, [0, 2, 1, 3])] [2, 3]) 1 1,
    -- 3470: del x392
    .del 565,
    -- 3471: x402 -= einsum("ia->ia", x401)
    .add 285 (.ein [(568, [0, 1])] [0, 1]) (-1) 1,
    -- 3472: x403 += einsum("ai,jb->ijab", l1.bb, x402)
    .add 225 (.ein [(40, [0, 1]), (285, [2, 3])] [1, 2, 0, 3]) 1 1,
    -- 3473: del x402
    .del 285,
    -- 3474: x494 -= einsum("ia->ia", x401)
    .add 281 (.ein [(568, [0, 1])] [0, 1]) (-1) 1,
    -- 3475: del x401
    .del 568,
    -- 3476: x399 -= einsum("ijka->jika", v.bbbb.ooov)
    .add 347 (.ein [(54, [0, 1, 2, 3])] [1, 0, 2, 3]) (-1) 1,
    -- 3477: x400 = np.zeros((nocc[1], nocc[1], nvir[1], nvir[1]), dtype=types[float])
    .zeros 569 [4, 4, 5, 5],
    -- 3478: x400 += einsum("ai,ijkb->jkab", l1.bb, x399)
    .add 569 (.ein [(40, [0, 1]), (347, [1, 2, 3, 4])] [2, 3, 0, 4]) 1 1,
    -- 3479: del x399
    .del 347,
    -- 3480: x403 += einsum("ijab->ijab", x400)
    .add 225 (.ein [(569, [0, 1, 2, 3])] [0, 1, 2, 3]) 1 1,
    -- 3481: del x400
    .del 569,
    -- 3482: l2new_bbbb += einsum("ijab->abij", x403)
    .add 496 (.ein [(225, [0, 1, 2, 3])] [2, 3, 0, 1]) 1 1,
    -- 3483: l2new_bbbb -= einsum("ijab->baij", x403)
    .add 496 (.ein [(225, [0, 1, 2, 3])] [3, 2, 0, 1]) (-1) 1,
    -- 3484: l2new_bbbb -= einsum("ijab->abji", x403)
    .add 496 (.ein [(225, [0, 1, 2, 3])] [2, 3, 1, 0]) (-1) 1,
    -- 3485: l2new_bbbb += einsum("ijab->baji", x403)
    .add 496 (.ein [(225, [0, 1, 2, 3])] [3, 2, 1, 0]) 1 1,
    -- 3486: del x403
    .del 225,
    -- 3487: x418 = np.zeros((nvir[1], nvir[1]), dtype=types[float])
    .zeros 570 [5, 5],
    -- 3488: x418 += einsum("ijab,iajc->bc", t2.abab, v.aabb.ovov)
    .add 570 (.ein [(13, [0, 1, 2, 3]), (16, [0, 2, 1, 4])] [3, 4]) 1 1,
    -- 3489: x420 += einsum("ab->ab", x418)
    .add 369 (.ein [(570, [0, 1])] [0, 1]) 1 1,
    -- 3490: x421 = np.zeros((nocc[1], nocc[1], nvir[1], nvir[1]), dtype=types[float])
    .zeros 571 [4, 4, 5, 5],
    -- 3491: x421 += einsum("ab,acij->ijcb", x420, l2.bbbb)
    .add 571 (.ein [(369, [0, 1]), (33, [0, 2, 3, 4])] [3, 4, 2, 1]) 1 1,
    -- 3492: del x420
    .del 369,
    -- 3493: x426 += einsum("ijab->jiab", x421)
    .add 365 (.ein [(571, [0, 1, 2, 3])] [1, 0, 2, 3]) 1 1,
    -- 3494: del x421
    .del 571,
    -- 3495: l2new_bbbb += einsum("ijab->abij", x426) * -1
    .add 496 (.ein [(365, [0, 1, 2, 3])] [2, 3, 0, 1]) (-1) 1,
    -- 3496: l2new_bbbb += einsum("ijab->baij", x426)
    .add 496 (.ein [(365, [0, 1, 2, 3])] [3, 2, 0, 1]) 1 1,
    -- 3497: l2new_bbbb += einsum("ijab->abji", x426)
    .add 496 (.ein [(365, [0, 1, 2, 3])] [2, 3, 1, 0]) 1 1,
    -- 3498: l2new_bbbb += einsum("ijab->baji", x426) * -1
    .add 496 (.ein [(365, [0, 1, 2, 3])] [3, 2, 1, 0]) (-1) 1,
    -- 3499: del x426
    .del 365,
    -- 3500: x472 += einsum("ab->ab", x418) * -1
    .add 298 (.ein [(570, [0, 1])] [0, 1]) (-1) 1,
    -- 3501: x525 += einsum("ab->ab", x418) * -1
    .add 292 (.ein [(570, [0, 1])] [0, 1]) (-1) 1,
    -- 3502: del x418
    .del 570,
    -- 3503: x427 = np.zeros((nocc[1], nocc[1], nvir[1], nvir[1]), dtype=types[float])
    .zeros 572 [4, 4, 5, 5],
    -- 3504: x427 += einsum("abij,kilj->klab", l2.bbbb, v.bbbb.oooo)
    .add 572 (.ein [(33, [0, 1, 2, 3]), (62, [4, 2, 5, 3])] [4, 5, 0, 1]) 1 1,
    -- 3505: x429 = np.zeros((nocc[1], nocc[1], nvir[1], nvir[1]), dtype=types[float])
    .zeros 573 [4, 4, 5, 5],
    -- 3506: x429 += einsum("ijab->jiba", x427)
    .add 573 (.ein [(572, [0, 1, 2, 3])] [1, 0, 3, 2]) 1 1,
    -- 3507: del x427
    .del 572,
    -- 3508: x428 = np.zeros((nocc[1], nocc[1], nvir[1], nvir[1]), dtype=types[float])
    .zeros 574 [4, 4, 5, 5],
    -- 3509: x428 += einsum("abij,acbd->ijcd", l2.bbbb, v.bbbb.vvvv)
    .add 574 (.ein [(33, [0, 1, 2, 3]), (64, [0, 4, 1, 5])] [2, 3, 4, 5]) 1 1,
    -- 3510: x429 += einsum("ijab->jiba", x428)
    .add 573 (.ein [(574, [0, 1, 2, 3])] [1, 0, 3, 2]) 1 1,
    -- 3511: del x428
    .del 574,
    -- 3512: l2new_bbbb += einsum("ijab->baij", x429) * -1
    .add 496 (.ein [(573, [0, 1, 2, 3])] [3, 2, 0, 1]) (-1) 1,
    -- 3513: l2new_bbbb += einsum("ijab->abij", x429)
    .add 496 (.ein [(573, [0, 1, 2, 3])] [2, 3, 0, 1]) 1 1,
    -- 3514: del x429
    .del 573,
    -- 3515: x431 = np.zeros((nocc[0], nocc[1], nvir[0], nvir[1]), dtype=types[float])
    .zeros 575 [0, 4, 1, 5],
    -- 3516: x431 += einsum("ai,jbac->jibc", l1.bb, v.aabb.ovvv)
    .add 575 (.ein [(40, [0, 1]), (19, [2, 3, 0, 4])] [2, 1, 3, 4]) 1 1,
    -- 3517: l2new_baba += einsum("ijab->baji", x431)
    .add 89 (.ein [(575, [0, 1, 2, 3])] [3, 2, 1, 0]) 1 1,
    -- 3518: l2new_abab += einsum("ijab->abij", x431)
    .add 90 (.ein [(575, [0, 1, 2, 3])] [2, 3, 0, 1]) 1 1,
    -- 3519: del x431
    .del 575,
    -- 3520: x432 = np.zeros((nocc[0], nocc[1], nvir[0], nvir[1]), dtype=types[float])
    .zeros 576 [0, 4, 1, 5],
    -- 3521: x432 += einsum("abij,acbd->ijcd", l2.abab, v.aabb.vvvv)
    .add 576 (.ein [(9, [0, 1, 2, 3]), (45, [0, 4, 1, 5])] [2, 3, 4, 5]) 1 1,
    -- 3522: l2new_baba += einsum("ijab->baji", x432)
    .add 89 (.ein [(576, [0, 1, 2, 3])] [3, 2, 1, 0]) 1 1,
    -- 3523: l2new_abab += einsum("ijab->abij", x432)
    .add 90 (.ein [(576, [0, 1, 2, 3])] [2, 3, 0, 1]) 1 1,
    -- 3524: del x432
    .del 576,
    -- 3525: x434 = np.zeros((nocc[0], nocc[1], nvir[0], nvir[1]), dtype=types[float])
    .zeros 577 [0, 4, 1, 5],
    -- 3526: x434 += einsum("ai,jbac->ijcb", l1.aa, v.bbaa.ovvv)
    .add 577 (.ein [(17, [0, 1]), (14, [2, 3, 0, 4])] [1, 2, 4, 3]) 1 1,
    -- 3527: l2new_baba += einsum("ijab->baji", x434)
    .add 89 (.ein [(577, [0, 1, 2, 3])] [3, 2, 1, 0]) 1 1,
    -- 3528: l2new_abab += einsum("ijab->abij", x434)
    .add 90 (.ein [(577, [0, 1, 2, 3])] [2, 3, 0, 1]) 1 1,
    -- 3529: del x434
    .del 577,
    -- 3530: x437 += einsum("iabj->ijab", v.aabb.ovvo)
    .add 126 (.ein [(37, [0, 1, 2, 3])] [0, 3, 1, 2]) 1 1,
    -- 3531: x438 = np.zeros((nocc[0], nocc[1], nvir[0], nvir[1]), dtype=types[float])
    .zeros 578 [0, 4, 1, 5],
    -- 3532: x438 += einsum("ijab,kica->kjcb", x270, x437)
    .add 578 (.ein [(501, [0, 1, 2, 3]), (126, [4, 0, 5, 2])] [4, 1, 5, 3]) 1 1,
    -- 3533: del x437
    .del 126,
    -- 3534: del x270
    .del 501,
    -- 3535: l2new_baba += einsum("ijab->baji", x438) * -1
    .add 89 (.ein [(578, [0, 1, 2, 3])] [3, 2, 1, 0]) (-1) 1,
    -- 3536: l2new_abab += einsum("ijab->abij", x438) * -1
    .add 90 (.ein [(578, [0, 1, 2, 3])] [2, 3, 0, 1]) (-1) 1,
    -- 3537: del x438
    .del 578,
    -- 3538: x441 += einsum("iabj->jiba", v.bbaa.ovvo)
    .add 250 (.ein [(46, [0, 1, 2, 3])] [3, 0, 2, 1]) 1 1,
    -- 3539: l2new_baba += einsum("ijab,ikbc->cakj", x200, x441) * -1
    .add 89 (.ein [(450, [0, 1, 2, 3]), (250, [0, 4, 3, 5])] [5, 2, 4, 1]) (-1) 1,
    -- 3540: del x200
    .del 450,
    -- 3541: l2new_abab += einsum("ijab,ikbc->acjk", x203, x441) * -1
    .add 90 (.ein [(454, [0, 1, 2, 3]), (250, [0, 4, 3, 5])] [2, 5, 1, 4]) (-1) 1,
    -- 3542: del x441
    .del 250,
    -- 3543: del x203
    .del 454,
    -- 3544: x442 = np.zeros((nocc[1], nocc[1], nvir[1], nvir[1]), dtype=types[float])
    .zeros 579 [4, 4, 5, 5],
    -- 3545: x442 += einsum("ijab,iakc->jkbc", t2.abab, v.aabb.ovov)
    .add 579 (.ein [(13, [0, 1, 2, 3]), (16, [0, 2, 4, 5])] [1, 4, 3, 5]) 1 1,
    -- 3546: x445 += einsum("ijab->jiab", x442)
    .add 371 (.ein [(579, [0, 1, 2, 3])] [1, 0, 2, 3]) 1 1,
    -- 3547: del x442
    .del 579,
    -- 3548: x445 += einsum("iabj->ijba", v.bbbb.ovvo)
    .add 371 (.ein [(55, [0, 1, 2, 3])] [0, 3, 2, 1]) 1 1,
    -- 3549: x445 += einsum("ijab->ijab", v.bbbb.oovv) * -1
    .add 371 (.ein [(56, [0, 1, 2, 3])] [0, 1, 2, 3]) (-1) 1,
    -- 3550: x446 = np.zeros((nocc[0], nocc[1], nvir[0], nvir[1]), dtype=types[float])
    .zeros 580 [0, 4, 1, 5],
    -- 3551: x446 += einsum("abij,kjbc->ikac", l2.abab, x445)
    .add 580 (.ein [(9, [0, 1, 2, 3]), (371, [4, 3, 1, 5])] [2, 4, 0, 5]) 1 1,
    -- 3552: del x445
    .del 371,
    -- 3553: l2new_baba += einsum("ijab->baji", x446)
    .add 89 (.ein [(580, [0, 1, 2, 3])] [3, 2, 1, 0]) 1 1,
    -- 3554: l2new_abab += einsum("ijab->abij", x446)
    .add 90 (.ein [(580, [0, 1, 2, 3])] [2, 3, 0, 1]) 1 1,
    -- 3555: del x446
    .del 580,
    -- 3556: x449 += einsum("iabj->ijba", v.aaaa.ovvo)
    .add 212 (.ein [(28, [0, 1, 2, 3])] [0, 3, 2, 1]) 1 1,
    -- 3557: x449 += einsum("ijab->ijab", v.aaaa.oovv) * -1
    .add 212 (.ein [(29, [0, 1, 2, 3])] [0, 1, 2, 3]) (-1) 1,
    -- 3558: x450 = np.zeros((nocc[0], nocc[1], nvir[0], nvir[1]), dtype=types[float])
    .zeros 581 [0, 4, 1, 5],
    -- 3559: x450 += einsum("abij,kiac->kjcb", l2.abab, x449)
    .add 581 (.ein [(9, [0, 1, 2, 3]), (212, [4, 2, 0, 5])] [4, 3, 5, 1]) 1 1,
    -- 3560: del x449
    .del 212,
    -- 3561: l2new_baba += einsum("ijab->baji", x450)
    .add 89 (.ein [(581, [0, 1, 2, 3])] [3, 2, 1, 0]) 1 1,
    -- 3562: l2new_abab += einsum("ijab->abij", x450)
    .add 90 (.ein [(581, [0, 1, 2, 3])] [2, 3, 0, 1]) 1 1,
    -- 3563: del x450
    .del 581,
    -- 3564: x451 = np.zeros((nocc[0], nocc[0], nvir[1], nvir[1]), dtype=types[float])
    .zeros 582 [0, 0, 5, 5],
    -- 3565: x451 += einsum("ia,jabc->ijbc", t1.aa, v.aabb.ovvv)
    .add 582 (.ein [(10, [0, 1]), (19, [2, 1, 3, 4])] [0, 2, 3, 4]) 1 1,
    -- 3566: x453 = np.zeros((nocc[0], nocc[0], nvir[1], nvir[1]), dtype=types[float])
    .zeros 583 [0, 0, 5, 5],
    -- 3567: x453 += einsum("ijab->jiab", x451)
    .add 583 (.ein [(582, [0, 1, 2, 3])] [1, 0, 2, 3]) 1 1,
    -- 3568: del x451
    .del 582,
    -- 3569: x452 = np.zeros((nocc[0], nocc[0], nvir[1], nvir[1]), dtype=types[float])
    .zeros 584 [0, 0, 5, 5],
    -- 3570: x452 += einsum("ijab,kajc->ikbc", t2.abab, v.aabb.ovov)
    .add 584 (.ein [(13, [0, 1, 2, 3]), (16, [4, 2, 1, 5])] [0, 4, 3, 5]) 1 1,
    -- 3571: x453 += einsum("ijab->jiab", x452) * -1
    .add 583 (.ein [(584, [0, 1, 2, 3])] [1, 0, 2, 3]) (-1) 1,
    -- 3572: del x452
    .del 584,
    -- 3573: x453 += einsum("ijab->ijab", v.aabb.oovv)
    .add 583 (.ein [(39, [0, 1, 2, 3])] [0, 1, 2, 3]) 1 1,
    -- 3574: x454 = np.zeros((nocc[0], nocc[1], nvir[0], nvir[1]), dtype=types[float])
    .zeros 585 [0, 4, 1, 5],
    -- 3575: x454 += einsum("abij,kibc->kjac", l2.abab, x453)
    .add 585 (.ein [(9, [0, 1, 2, 3]), (583, [4, 2, 1, 5])] [4, 3, 0, 5]) 1 1,
    -- 3576: del x453
    .del 583,
    -- 3577: l2new_baba += einsum("ijab->baji", x454) * -1
    .add 89 (.ein [(585, [0, 1, 2, 3])] [3, 2, 1, 0]) (-1) 1,
    -- 3578: l2new_abab += einsum("ijab->abij", x454) * -1
    .add 90 (.ein [(585, [0, 1, 2, 3])] [2, 3, 0, 1]) (-1) 1,
    -- 3579: del x454
    .del 585,
    -- 3580: x455 = np.zeros((nocc[1], nocc[1], nvir[0], nvir[0]), dtype=types[float])
    .zeros 586 [4, 4, 1, 1],
    -- 3581: x455 += einsum("ijab,ickb->jkac", t2.abab, v.aabb.ovov)
    .add 586 (.ein [(13, [0, 1, 2, 3]), (16, [0, 4, 5, 3])] [1, 5, 2, 4]) 1 1,
    -- 3582: x456 += einsum("ijab->jiab", x455) * -1
    .add 469 (.ein [(586, [0, 1, 2, 3])] [1, 0, 2, 3]) (-1) 1,
    -- 3583: del x455
    .del 586,
    -- 3584: x456 += einsum("ijab->ijab", v.bbaa.oovv)
    .add 469 (.ein [(15, [0, 1, 2, 3])] [0, 1, 2, 3]) 1 1,
    -- 3585: x457 = np.zeros((nocc[0], nocc[1], nvir[0], nvir[1]), dtype=types[float])
    .zeros 587 [0, 4, 1, 5],
    -- 3586: x457 += einsum("abij,kjac->ikcb", l2.abab, x456)
    .add 587 (.ein [(9, [0, 1, 2, 3]), (469, [4, 3, 0, 5])] [2, 4, 5, 1]) 1 1,
    -- 3587: del x456
    .del 469,
    -- 3588: l2new_baba += einsum("ijab->baji", x457) * -1
    .add 89 (.ein [(587, [0, 1, 2, 3])] [3, 2, 1, 0]) (-1) 1,
    -- 3589: l2new_abab += einsum("ijab->abij", x457) * -1
    .add 90 (.ein [(587, [0, 1, 2, 3])] [2, 3, 0, 1]) (-1) 1,
    -- 3590: del x457
    .del 587,
    -- 3591: x459 += einsum("ijkl->ijkl", v.aabb.oooo)
    .add 188 (.ein [(36, [0, 1, 2, 3])] [0, 1, 2, 3]) 1 1,
    -- 3592: x460 = np.zeros((nocc[0], nocc[1], nvir[0], nvir[1]), dtype=types[float])
    .zeros 588 [0, 4, 1, 5],
    -- 3593: x460 += einsum("abij,kilj->klab", l2.abab, x459)
    .add 588 (.ein [(9, [0, 1, 2, 3]), (188, [4, 2, 5, 3])] [4, 5, 0, 1]) 1 1,
    -- 3594: del x459
    .del 188,
    -- 3595: l2new_baba += einsum("ijab->baji", x460)
    .add 89 (.ein [(588, [0, 1, 2, 3])] [3, 2, 1, 0]) 1 1,
    -- 3596: l2new_abab += einsum("ijab->abij", x460)
    .add 90 (.ein [(588, [0, 1, 2, 3])] [2, 3, 0, 1]) 1 1,
    -- 3597: del x460
    .del 588,
    -- 3598: x467 = np.zeros((nocc[0], nocc[0], nocc[0], nvir[0]), dtype=types[float])
    .zeros 589 [0, 0, 0, 1],
    -- 3599: x467 += einsum("ijka->ikja", v.aaaa.ooov)
    .add 589 (.ein [(27, [0, 1, 2, 3])] [0, 2, 1, 3]) 1 1,
    -- 3600: x467 -= einsum("ijka->kija", v.aaaa.ooov)
    .add 589 (.ein [(27, [0, 1, 2, 3])] [2, 0, 1, 3]) (-1) 1,
    -- 3601: l2new_baba -= einsum("ijka,kilb->balj", x467, x53)
    .add 89 (.ein [(589, [0, 1, 2, 3]), (221, [2, 0, 4, 5])] [5, 3, 4, 1]) (-1) 1,
    -- 3602: del x53
    .del 221,
    -- 3603: lu11new_aa -= einsum("wij,jkia->wak", x157, x467)
    .add 195 (.ein [(387, [0, 1, 2]), (589, [2, 3, 1, 4])] [0, 4, 3]) (-1) 1,
    -- 3604: del x467
    .del 589,
    -- 3605: del x157
    .del 387,
    -- 3606: x469 += einsum("ab->ab", f.aa.vv)
    .add 154 (.ein [(51, [0, 1])] [0, 1]) 1 1,
    -- 3607: x470 = np.zeros((nocc[0], nocc[1], nvir[0], nvir[1]), dtype=types[float])
    .zeros 590 [0, 4, 1, 5],
    -- 3608: x470 += einsum("ab,acij->ijbc", x469, l2.abab)
    .add 590 (.ein [(154, [0, 1]), (9, [0, 2, 3, 4])] [3, 4, 1, 2]) 1 1,
    -- 3609: del x469
    .del 154,
    -- 3610: l2new_baba += einsum("ijab->baji", x470)
    .add 89 (.ein [(590, [0, 1, 2, 3])] [3, 2, 1, 0]) 1 1,
    -- 3611: l2new_abab += einsum("ijab->abij", x470)
    .add 90 (.ein [(590, [0, 1, 2, 3])] [2, 3, 0, 1]) 1 1,
    -- 3612: del x470
    .del 590,
    -- 3613: x472 += einsum("ab->ab", f.bb.vv)
    .add 298 (.ein [(58, [0, 1])] [0, 1]) 1 1,
    -- 3614: x473 = np.zeros((nocc[0], nocc[1], nvir[0], nvir[1]), dtype=types[float])
    .zeros 591 [0, 4, 1, 5],
    -- 3615: x473 += einsum("ab,caij->ijcb", x472, l2.abab)
    .add 591 (.ein [(298, [0, 1]), (9, [2, 0, 3, 4])] [3, 4, 2, 1]) 1 1,
    -- 3616: del x472
    .del 298,
    -- 3617: l2new_baba += einsum("ijab->baji", x473)
    .add 89 (.ein [(591, [0, 1, 2, 3])] [3, 2, 1, 0]) 1 1,
    -- 3618: l2new_abab += einsum("ijab->abij", x473)
    .add 90 (.ein [(591, [0, 1, 2, 3])] [2, 3, 0, 1]) 1 1,
    -- 3619: del x473
    .del 591,
    -- 3620: x484 += einsum("wia->wia", gc.aa.bov)
    .add 442 (.ein [(68, [0, 1, 2])] [0, 1, 2]) 1 1,
    -- 3621: x485 = np.zeros((nocc[0], nocc[1], nvir[0], nvir[1]), dtype=types[float])
    .zeros 592 [0, 4, 1, 5],
    -- 3622: x485 += einsum("wai,wjb->jiba", lu11.bb, x484)
    .add 592 (.ein [(34, [0, 1, 2]), (442, [0, 3, 4])] [3, 2, 4, 1]) 1 1,
    -- 3623: del x484
    .del 442,
    -- 3624: l2new_baba += einsum("ijab->baji", x485)
    .add 89 (.ein [(592, [0, 1, 2, 3])] [3, 2, 1, 0]) 1 1,
    -- 3625: l2new_abab += einsum("ijab->abij", x485)
    .add 90 (.ein [(592, [0, 1, 2, 3])] [2, 3, 0, 1]) 1 1,
    -- 3626: del x485
    .del 592,
    -- 3627: x486 += einsum("wia->wia", gc.bb.bov)
    .add 509 (.ein [(72, [0, 1, 2])] [0, 1, 2]) 1 1,
    -- 3628: x487 = np.zeros((nocc[0], nocc[1], nvir[0], nvir[1]), dtype=types[float])
    .zeros 593 [0, 4, 1, 5],
    -- 3629: x487 += einsum("wai,wjb->ijab", lu11.aa, x486)
    .add 593 (.ein [(41, [0, 1, 2]), (509, [0, 3, 4])] [2, 3, 1, 4]) 1 1,
    -- 3630: del x486
    .del 509,
    -- 3631: l2new_baba += einsum("ijab->baji", x487)
    .add 89 (.ein [(593, [0, 1, 2, 3])] [3, 2, 1, 0]) 1 1,
    -- 3632: l2new_abab += einsum("ijab->abij", x487)
    .add 90 (.ein [(593, [0, 1, 2, 3])] [2, 3, 0, 1]) 1 1,
    -- 3633: del x487
    .del 593,
    -- 3634: x490 += einsum("iajk->ijka", v.aabb.ovoo)
    .add 184 (.ein [(11, [0, 1, 2, 3])] [0, 2, 3, 1]) 1 1,
    -- 3635: x491 = np.zeros((nocc[0], nocc[1], nvir[0], nvir[1]), dtype=types[float])
    .zeros 594 [0, 4, 1, 5],
    -- 3636: x491 += einsum("ai,jkib->jkba", l1.bb, x490)
    .add 594 (.ein [(40, [0, 1]), (184, [2, 3, 1, 4])] [2, 3, 4, 0]) 1 1,
    -- 3637: del x490
    .del 184,
    -- 3638: l2new_baba -= einsum("ijab->baji", x491)
    .add 89 (.ein [(594, [0, 1, 2, 3])] [3, 2, 1, 0]) (-1) 1,
    -- 3639: l2new_abab -= einsum("ijab->abij", x491)
    .add 90 (.ein [(594, [0, 1, 2, 3])] [2, 3, 0, 1]) (-1) 1,
    -- 3640: del x491
    .del 594,
    -- 3641: x492 += einsum("ijka->ijka", v.aabb.ooov)
    .add 157 (.ein [(12, [0, 1, 2, 3])] [0, 1, 2, 3]) 1 1,
    -- 3642: x493 = np.zeros((nocc[0], nocc[1], nvir[0], nvir[1]), dtype=types[float])
    .zeros 595 [0, 4, 1, 5],
    -- 3643: x493 += einsum("ai,jikb->jkab", l1.aa, x492)
    .add 595 (.ein [(17, [0, 1]), (157, [2, 1, 3, 4])] [2, 3, 0, 4]) 1 1,
    -- 3644: del x492
    .del 157,
    -- 3645: l2new_baba -= einsum("ijab->baji", x493)
    .add 89 (.ein [(595, [0, 1, 2, 3])] [3, 2, 1, 0]) (-1) 1,
    -- 3646: l2new_abab -= einsum("ijab->abij", x493)
    .add 90 (.ein [(595, [0, 1, 2, 3])] [2, 3, 0, 1]) (-1) 1,
    -- 3647: del x493
    .del 595,
    -- 3648: x494 += einsum("ia->ia", f.bb.ov)
    .add 281 (.ein [(49, [0, 1])] [0, 1]) 1 1,
    -- 3649: l2new_baba += einsum("ai,jb->baji", l1.aa, x494)
    .add 89 (.ein [(17, [0, 1]), (281, [2, 3])] [3, 0, 2, 1]) 1 1,
    -- 3650: l2new_abab += einsum("ai,jb->abij", l1.aa, x494)
    .add 90 (.ein [(17, [0, 1]), (281, [2, 3])] [0, 3, 1, 2]) 1 1,
    -- 3651: del x494
    .del 281,
    -- 3652: x495 += einsum("ia->ia", f.aa.ov)
    .add 102 (.ein [(20, [0, 1])] [0, 1]) 1 1,
    -- 3653: l2new_baba += einsum("ai,jb->abij", l1.bb, x495)
    .add 89 (.ein [(40, [0, 1]), (102, [2, 3])] [0, 3, 1, 2]) 1 1,
    -- 3654: l2new_abab += einsum("ai,jb->baji", l1.bb, x495)
    .add 90 (.ein [(40, [0, 1]), (102, [2, 3])] [3, 0, 2, 1]) 1 1,
    -- 3655: del x495
    .del 102,
    -- 3656: x496 = np.zeros((nocc[1], nocc[1], nocc[1], nvir[1]), dtype=types[float])
    .zeros 596 [4, 4, 4, 5],
    -- 3657: x496 -= einsum("ijka->ikja", v.bbbb.ooov)
    .add 596 (.ein [(54, [0, 1, 2, 3])] [0, 2, 1, 3]) (-1) 1,
    -- 3658: x496 += einsum("ijka->kija", v.bbbb.ooov)
    .add 596 (.ein [(54, [0, 1, 2, 3])] [2, 0, 1, 3]) 1 1,
    -- 3659: l2new_abab -= einsum("ijka,lkjb->abil", x0, x496)
    .add 90 (.ein [(75, [0, 1, 2, 3]), (596, [4, 2, 1, 5])] [3, 5, 0, 4]) (-1) 1,
    -- 3660: del x0
    .del 75,
    -- 3661: lu11new_bb -= einsum("wij,kjia->wak", x174, x496)
    .add 306 (.ein [(404, [0, 1, 2]), (596, [3, 2, 1, 4])] [0, 4, 3]) (-1) 1,
    -- 3662: del x496
    .del 596,
    -- 3663: del x174
    .del 404,
    -- 3664: x497 = np.zeros((nbos, nvir[1], nvir[1]), dtype=types[float])
    .zeros 597 [2, 5, 5],
    -- 3665: x497 += einsum("ia,wbi->wba", t1.bb, lu11.bb)
    .add 597 (.ein [(8, [0, 1]), (34, [2, 3, 0])] [2, 3, 1]) 1 1,
    -- 3666: lu11new_aa += einsum("wab,icab->wci", x497, v.aabb.ovvv)
    .add 195 (.ein [(597, [0, 1, 2]), (19, [3, 4, 1, 2])] [0, 4, 3]) 1 1,
    -- 3667: lu11new_bb -= einsum("wab,iacb->wci", x497, x277)
    .add 306 (.ein [(597, [0, 1, 2]), (510, [3, 1, 4, 2])] [0, 4, 3]) (-1) 1,
    -- 3668: del x497
    .del 597,
    -- 3669: del x277
    .del 510,
    -- 3670: x498 = np.zeros((nbos, nocc[0], nvir[0]), dtype=types[float])
    .zeros 598 [2, 0, 1],
    -- 3671: x498 += einsum("ia,wba->wib", t1.aa, g.aa.bvv)
    .add 598 (.ein [(10, [0, 1]), (3, [2, 3, 1])] [2, 0, 3]) 1 1,
    -- 3672: x502 += einsum("wia->wia", x498)
    .add 252 (.ein [(598, [0, 1, 2])] [0, 1, 2]) 1 1,
    -- 3673: del x498
    .del 598,
    -- 3674: x499 = np.zeros((nbos, nocc[0], nvir[0]), dtype=types[float])
    .zeros 599 [2, 0, 1],
    -- 3675: x499 += einsum("wia,jiba->wjb", g.bb.bov, t2.abab)
    .add 599 (.ein [(6, [0, 1, 2]), (13, [3, 1, 4, 2])] [0, 3, 4]) 1 1,
    -- 3676: x502 += einsum("wia->wia", x499)
    .add 252 (.ein [(599, [0, 1, 2])] [0, 1, 2]) 1 1,
    -- 3677: del x499
    .del 599,
    -- 3678: x502 += einsum("wai->wia", g.aa.bvo)
    .add 252 (.ein [(1, [0, 1, 2])] [0, 2, 1]) 1 1,
    -- 3679: lu11new_aa += einsum("wia,ijba->wbj", x502, x41)
    .add 195 (.ein [(252, [0, 1, 2]), (207, [1, 3, 4, 2])] [0, 4, 3]) 1 1,
    -- 3680: del x41
    .del 207,
    -- 3681: lu11new_bb += einsum("wia,abij->wbj", x502, l2.abab)
    .add 306 (.ein [(252, [0, 1, 2]), (9, [2, 3, 1, 4])] [0, 3, 4]) 1 1,
    -- 3682: del x502
    .del 252,
    -- 3683: x504 = np.zeros((nbos, nocc[0], nvir[0]), dtype=types[float])
    .zeros 600 [2, 0, 1],
    -- 3684: x504 += einsum("wai,jiba->wjb", lu11.bb, t2.abab)
    .add 600 (.ein [(34, [0, 1, 2]), (13, [3, 2, 4, 1])] [0, 3, 4]) 1 1,
    -- 3685: x506 += einsum("wia->wia", x504)
    .add 254 (.ein [(600, [0, 1, 2])] [0, 1, 2]) 1 1,
    -- 3686: del x504
    .del 600,
    -- 3687: lu11new_aa += einsum("wia,ijba->wbj", x506, x13) * -1
    .add 195 (.ein [(254, [0, 1, 2]), (117, [1, 3, 4, 2])] [0, 4, 3]) (-1) 1,
    -- 3688: del x13
    .del 117,
    -- 3689: lu11new_bb += einsum("wia,iajb->wbj", x506, v.aabb.ovov)
    .add 306 (.ein [(254, [0, 1, 2]), (16, [1, 2, 3, 4])] [0, 4, 3]) 1 1,
    -- 3690: del x506
    .del 254,
    -- 3691: x507 = np.zeros((nbos, nocc[1], nvir[1]), dtype=types[float])
    .zeros 601 [2, 4, 5],
    -- 3692: x507 += einsum("ia,wba->wib", t1.bb, g.bb.bvv)
    .add 601 (.ein [(8, [0, 1]), (7, [2, 3, 1])] [2, 0, 3]) 1 1,
    -- 3693: x511 += einsum("wia->wia", x507)
    .add 177 (.ein [(601, [0, 1, 2])] [0, 1, 2]) 1 1,
    -- 3694: del x507
    .del 601,
    -- 3695: x508 = np.zeros((nbos, nocc[1], nvir[1]), dtype=types[float])
    .zeros 602 [2, 4, 5],
    -- 3696: x508 += einsum("wia,ijab->wjb", g.aa.bov, t2.abab)
    .add 602 (.ein [(2, [0, 1, 2]), (13, [1, 3, 2, 4])] [0, 3, 4]) 1 1,
    -- 3697: x511 += einsum("wia->wia", x508)
    .add 177 (.ein [(602, [0, 1, 2])] [0, 1, 2]) 1 1,
    -- 3698: del x508
    .del 602,
    -- 3699: x511 += einsum("wai->wia", g.bb.bvo)
    .add 177 (.ein [(5, [0, 1, 2])] [0, 2, 1]) 1 1,
    -- 3700: lu11new_aa += einsum("wia,baji->wbj", x511, l2.abab)
    .add 195 (.ein [(177, [0, 1, 2]), (9, [3, 2, 4, 1])] [0, 3, 4]) 1 1,
    -- 3701: lu11new_bb += einsum("wia,ijab->wbj", x511, x224)
    .add 306 (.ein [(177, [0, 1, 2]), (466, [1, 3, 2, 4])] [0, 4, 3]) 1 1,
    -- 3702: del x224
    .del 466,
    -- 3703: del x511
    .del 177,
    -- 3704: x512 = np.zeros((nbos, nocc[1], nvir[1]), dtype=types[float])
    .zeros 603 [2, 4, 5],
    -- 3705: x512 += einsum("wai,ijab->wjb", lu11.aa, t2.abab)
    .add 603 (.ein [(41, [0, 1, 2]), (13, [2, 3, 1, 4])] [0, 3, 4]) 1 1,
    -- 3706: x515 += einsum("wia->wia", x512)
    .add 179 (.ein [(603, [0, 1, 2])] [0, 1, 2]) 1 1,
    -- 3707: del x512
    .del 603,
    -- 3708: lu11new_aa += einsum("wia,jbia->wbj", x515, v.aabb.ovov)
    .add 195 (.ein [(179, [0, 1, 2]), (16, [3, 4, 1, 2])] [0, 4, 3]) 1 1,
    -- 3709: lu11new_bb += einsum("wia,ijab->wbj", x515, x89) * -1
    .add 306 (.ein [(179, [0, 1, 2]), (286, [1, 3, 2, 4])] [0, 4, 3]) (-1) 1,
    -- 3710: del x89
    .del 286,
    -- 3711: del x515
    .del 179,
    -- 3712: x516 = np.zeros((nbos, nvir[0], nvir[0]), dtype=types[float])
    .zeros 604 [2, 1, 1],
    -- 3713: x516 += einsum("ia,wbi->wba", t1.aa, lu11.aa)
    .add 604 (.ein [(10, [0, 1]), (41, [2, 3, 0])] [2, 3, 1]) 1 1,
    -- 3714: lu11new_aa -= einsum("wab,iacb->wci", x516, x298)
    .add 195 (.ein [(604, [0, 1, 2]), (526, [3, 1, 4, 2])] [0, 4, 3]) (-1) 1,
    -- 3715: del x298
    .del 526,
    -- 3716: lu11new_bb += einsum("wab,icab->wci", x516, v.bbaa.ovvv)
    .add 306 (.ein [(604, [0, 1, 2]), (14, [3, 4, 1, 2])] [0, 4, 3]) 1 1,
    -- 3717: del x516
    .del 604,
    -- 3718: x517 += einsum("ab->ab", f.aa.vv)
    .add 122 (.ein [(51, [0, 1])] [0, 1]) 1 1,
    -- 3719: lu11new_aa += einsum("ab,wai->wbi", x517, lu11.aa)
    .add 195 (.ein [(122, [0, 1]), (41, [2, 0, 3])] [2, 1, 3]) 1 1,
    -- 3720: del x517
    .del 122,
    -- 3721: x518 = np.zeros((nbos, nbos), dtype=types[float])
    .zeros 605 [2, 2],
    -- 3722: x518 += einsum("wia,xia->wx", g.aa.bov, u11.aa)
    .add 605 (.ein [(2, [0, 1, 2]), (26, [3, 1, 2])] [0, 3]) 1 1,
    -- 3723: x520 = np.zeros((nbos, nbos), dtype=types[float])
    .zeros 606 [2, 2],
    -- 3724: x520 += einsum("wx->wx", x518)
    .add 606 (.ein [(605, [0, 1])] [0, 1]) 1 1,
    -- 3725: del x518
    .del 605,
    -- 3726: x519 = np.zeros((nbos, nbos), dtype=types[float])
    .zeros 607 [2, 2],
    -- 3727: x519 += einsum("wia,xia->wx", g.bb.bov, u11.bb)
    .add 607 (.ein [(6, [0, 1, 2]), (48, [3, 1, 2])] [0, 3]) 1 1,
    -- 3728: x520 += einsum("wx->wx", x519)
    .add 606 (.ein [(607, [0, 1])] [0, 1]) 1 1,
    -- 3729: del x519
    .del 607,
    -- 3730: x520 += einsum("wx->wx", w)
    .add 606 (.ein [(60, [0, 1])] [0, 1]) 1 1,
    -- 3731: lu11new_aa += einsum("wx,xai->wai", x520, lu11.aa)
    .add 195 (.ein [(606, [0, 1]), (41, [1, 2, 3])] [0, 2, 3]) 1 1,
    -- 3732: lu11new_bb += einsum("wx,xai->wai", x520, lu11.bb)
    .add 306 (.ein [(606, [0, 1]), (34, [1, 2, 3])] [0, 2, 3]) 1 1,
    -- 3733: del x520
    .del 606,
    -- 3734: x521 += einsum("wij->wij", g.aa.boo)
    .add 309 (.ein [(0, [0, 1, 2])] [0, 1, 2]) 1 1,
    -- 3735: lu11new_aa -= einsum("ai,wji->waj", l1.aa, x521)
    .add 195 (.ein [(17, [0, 1]), (309, [2, 3, 1])] [2, 0, 3]) (-1) 1,
    -- 3736: del x521
    .del 309,
    -- 3737: x522 = np.zeros((nbos, nbos), dtype=types[float])
    .zeros 608 [2, 2],
    -- 3738: x522 += einsum("wai,xia->wx", lu11.aa, u11.aa)
    .add 608 (.ein [(41, [0, 1, 2]), (26, [3, 2, 1])] [0, 3]) 1 1,
    -- 3739: x524 = np.zeros((nbos, nbos), dtype=types[float])
    .zeros 609 [2, 2],
    -- 3740: x524 += einsum("wx->wx", x522)
    .add 609 (.ein [(608, [0, 1])] [0, 1]) 1 1,
    -- 3741: del x522
    .del 608,
    -- 3742: x523 = np.zeros((nbos, nbos), dtype=types[float])
    .zeros 610 [2, 2],
    -- 3743: x523 += einsum("wai,xia->wx", lu11.bb, u11.bb)
    .add 610 (.ein [(34, [0, 1, 2]), (48, [3, 2, 1])] [0, 3]) 1 1,
    -- 3744: x524 += einsum("wx->wx", x523)
    .add 609 (.ein [(610, [0, 1])] [0, 1]) 1 1,
    -- 3745: del x523
    .del 610,
    -- 3746: lu11new_aa += einsum("wx,xia->wai", x524, g.aa.bov)
    .add 195 (.ein [(609, [0, 1]), (2, [1, 2, 3])] [0, 3, 2]) 1 1,
    -- 3747: lu11new_bb += einsum("wx,xia->wai", x524, g.bb.bov)
    .add 306 (.ein [(609, [0, 1]), (6, [1, 2, 3])] [0, 3, 2]) 1 1,
    -- 3748: del x524
    .del 609,
    -- 3749: x525 += einsum("ab->ab", f.bb.vv)
    .add 292 (.ein [(58, [0, 1])] [0, 1]) 1 1,
    -- 3750: lu11new_bb += einsum("ab,wai->wbi", x525, lu11.bb)
    .add 306 (.ein [(292, [0, 1]), (34, [2, 0, 3])] [2, 1, 3]) 1 1,
    -- 3751: del x525
    .del 292,
    -- 3752: x526 += einsum("wij->wij", g.bb.boo)
    .add 355 (.ein [(4, [0, 1, 2])] [0, 1, 2]) 1 1,
    -- 3753: lu11new_bb -= einsum("ai,wji->waj", l1.bb, x526)
    .add 306 (.ein [(40, [0, 1]), (355, [2, 3, 1])] [2, 0, 3]) (-1) 1,
    -- 3754: del x526
    .del 355,
    -- 3755: l1new_aa += einsum("w,wia->ai", ls1, gc.aa.bov)
    .add 79 (.ein [(35, [0]), (68, [0, 1, 2])] [2, 1]) 1 1,
    -- 3756: l1new_aa += einsum("ia->ai", f.aa.ov)
    .add 79 (.ein [(20, [0, 1])] [1, 0]) 1 1,
    -- 3757: l1new_aa += einsum("ai,jbai->bj", l1.bb, v.aabb.ovvo)
    .add 79 (.ein [(40, [0, 1]), (37, [2, 3, 0, 1])] [3, 2]) 1 1,
    -- 3758: l1new_bb += einsum("w,wia->ai", ls1, gc.bb.bov)
    .add 80 (.ein [(35, [0]), (72, [0, 1, 2])] [2, 1]) 1 1,
    -- 3759: l1new_bb += einsum("ia->ai", f.bb.ov)
    .add 80 (.ein [(49, [0, 1])] [1, 0]) 1 1,
    -- 3760: l1new_bb += einsum("ai,jbai->bj", l1.aa, v.bbaa.ovvo)
    .add 80 (.ein [(17, [0, 1]), (46, [2, 3, 0, 1])] [3, 2]) 1 1,
    -- 3761: l2new_aaaa -= einsum("iajb->abji", v.aaaa.ovov)
    .add 269 (.ein [(24, [0, 1, 2, 3])] [1, 3, 2, 0]) (-1) 1,
    -- 3762: l2new_aaaa += einsum("iajb->baji", v.aaaa.ovov)
    .add 269 (.ein [(24, [0, 1, 2, 3])] [3, 1, 2, 0]) 1 1,
    -- 3763: l2new_bbbb -= einsum("iajb->abji", v.bbbb.ovov)
    .add 496 (.ein [(47, [0, 1, 2, 3])] [1, 3, 2, 0]) (-1) 1,
    -- 3764: l2new_bbbb += einsum("iajb->baji", v.bbbb.ovov)
    .add 496 (.ein [(47, [0, 1, 2, 3])] [3, 1, 2, 0]) 1 1,
    -- 3765: l2new_baba += einsum("iajb->baji", v.aabb.ovov)
    .add 89 (.ein [(16, [0, 1, 2, 3])] [3, 1, 2, 0]) 1 1,
    -- 3766: l2new_abab += einsum("iajb->abij", v.aabb.ovov)
    .add 90 (.ein [(16, [0, 1, 2, 3])] [1, 3, 0, 2]) 1 1,
    -- 3767: ls1new += einsum("w,xw->x", ls1, w)
    .add 333 (.ein [(35, [0]), (60, [1, 0])] [1]) 1 1,
    -- 3768: ls1new += einsum("w->w", G)
    .add 333 (.ein [(52, [0])] [0]) 1 1,
    -- 3769: ls1new += einsum("ai,wai->w", l1.bb, g.bb.bvo)
    .add 333 (.ein [(40, [0, 1]), (5, [2, 0, 1])] [2]) 1 1,
    -- 3770: ls1new += einsum("ai,wai->w", l1.aa, g.aa.bvo)
    .add 333 (.ein [(17, [0, 1]), (1, [2, 0, 1])] [2]) 1 1,
    -- 3771: lu11new_aa += einsum("wia->wai", g.aa.bov)
    .add 195 (.ein [(2, [0, 1, 2])] [0, 2, 1]) 1 1,
    -- 3772: lu11new_aa += einsum("wai,jbai->wbj", lu11.bb, v.aabb.ovvo)
    .add 195 (.ein [(34, [0, 1, 2]), (37, [3, 4, 1, 2])] [0, 4, 3]) 1 1,
    -- 3773: lu11new_aa += einsum("ai,wab->wbi", l1.aa, g.aa.bvv)
    .add 195 (.ein [(17, [0, 1]), (3, [2, 0, 3])] [2, 3, 1]) 1 1,
    -- 3774: lu11new_bb += einsum("ai,wab->wbi", l1.bb, g.bb.bvv)
    .add 306 (.ein [(40, [0, 1]), (7, [2, 0, 3])] [2, 3, 1]) 1 1,
    -- 3775: lu11new_bb += einsum("wia->wai", g.bb.bov)
    .add 306 (.ein [(6, [0, 1, 2])] [0, 2, 1]) 1 1,
    -- 3776: lu11new_bb += einsum("wai,jbai->wbj", lu11.aa, v.bbaa.ovvo)
    .add 306 (.ein [(41, [0, 1, 2]), (46, [3, 4, 1, 2])] [0, 4, 3]) 1 1,
    -- 3778: l1new.aa = l1new_aa
    .set 611 (.cp 79) 1 1,
    -- 3779: l1new.bb = l1new_bb
    .set 612 (.cp 80) 1 1,
    -- 3780: l2new.abab = l2new_abab
    .set 613 (.cp 90) 1 1,
    -- 3781: l2new.baba = l2new_baba
    .set 614 (.cp 89) 1 1,
    -- 3782: l2new.aaaa = l2new_aaaa
    .set 615 (.cp 269) 1 1,
    -- 3783: l2new.bbbb = l2new_bbbb
    .set 616 (.cp 496) 1 1,
    -- 3784: lu11new.aa = lu11new_aa
    .set 617 (.cp 195) 1 1,
    -- 3785: lu11new.bb = lu11new_bb
    .set 618 (.cp 306) 1 1
  ]
  ret := [(chars! "l1new.aa", 611), (chars! "l1new.bb", 612), (chars! "l2new.abab", 613), (chars! "l2new.baba", 614), (chars! "l2new.aaaa", 615), (chars! "l2new.bbbb", 616), (chars! "ls1new", 333), (chars! "lu11new.aa", 617), (chars! "lu11new.bb", 618)]

end Ebcc.Gen.UCCSD_S_1_1
