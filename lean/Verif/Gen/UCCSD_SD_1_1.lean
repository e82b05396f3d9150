import Verif.Model.GenCode
/-!
Functions of `ebcc/codegen/UCCSD_SD_1_1.py`, written by `tools/gencode.py`.  Comments give the
number and the text of the line of each statement.
-/

set_option maxRecDepth 100000

namespace Ebcc.Gen.UCCSD_SD_1_1

/-- codegen/UCCSD_SD_1_1.py:7-44 `energy`. -/
def energy : GenFun where
  args := [chars! "v.bbbb.ovov", chars! "t2.bbbb", chars! "t1.bb", chars! "v.aaaa.ovov", chars! "t2.aaaa", chars! "t1.aa", chars! "t2.abab", chars! "v.aabb.ovov", chars! "G", chars! "g.aa.bov", chars! "g.bb.bov", chars! "s1", chars! "u11.aa", chars! "u11.bb", chars! "f.bb.ov", chars! "f.aa.ov"]
  body := [
    -- 9: x0 = np.zeros((nocc[1], nocc[1], nvir[1], nvir[1]), dtype=types[float])
    .zeros 16 [4, 4, 5, 5],
    -- 10: x0 += einsum("iajb->jiab", v.bbbb.ovov) * -1
    .add 16 (.ein [(0, [0, 1, 2, 3])] [2, 0, 1, 3]) (-1) 1,
    -- 11: x0 += einsum("iajb->jiba", v.bbbb.ovov)
    .add 16 (.ein [(0, [0, 1, 2, 3])] [2, 0, 3, 1]) 1 1,
    -- 12: x1 = np.zeros((nocc[1], nocc[1], nvir[1], nvir[1]), dtype=types[float])
    .zeros 17 [4, 4, 5, 5],
    -- 13: x1 += einsum("ijab->jiba", t2.bbbb)
    .add 17 (.ein [(1, [0, 1, 2, 3])] [1, 0, 3, 2]) 1 1,
    -- 14: x1 += einsum("ia,jb->ijab", t1.bb, t1.bb)
    .add 17 (.ein [(2, [0, 1]), (2, [2, 3])] [0, 2, 1, 3]) 1 1,
    -- 15: e_cc = 0
    .zeros 18 [],
    -- 16: e_cc += einsum("ijab,ijba->", x0, x1) * -0.5
    .add 18 (.ein [(16, [0, 1, 2, 3]), (17, [0, 1, 3, 2])] []) (-1) 2,
    -- 17: del x0
    .del 16,
    -- 18: del x1
    .del 17,
    -- 19: x2 = np.zeros((nocc[0], nocc[0], nvir[0], nvir[0]), dtype=types[float])
    .zeros 19 [0, 0, 1, 1],
    -- 20: x2 += einsum("iajb->jiab", v.aaaa.ovov)
    .add 19 (.ein [(3, [0, 1, 2, 3])] [2, 0, 1, 3]) 1 1,
    -- 21: x2 += einsum("iajb->jiba", v.aaaa.ovov) * -1
    .add 19 (.ein [(3, [0, 1, 2, 3])] [2, 0, 3, 1]) (-1) 1,
    -- 22: x3 = np.zeros((nocc[0], nocc[0], nvir[0], nvir[0]), dtype=types[float])
    .zeros 20 [0, 0, 1, 1],
    -- 23: x3 += einsum("ijab->jiba", t2.aaaa)
    .add 20 (.ein [(4, [0, 1, 2, 3])] [1, 0, 3, 2]) 1 1,
    -- 24: x3 += einsum("ia,jb->ijba", t1.aa, t1.aa) * -1
    .add 20 (.ein [(5, [0, 1]), (5, [2, 3])] [0, 2, 3, 1]) (-1) 1,
    -- 25: e_cc += einsum("ijab,ijab->", x2, x3) * -0.5
    .add 18 (.ein [(19, [0, 1, 2, 3]), (20, [0, 1, 2, 3])] []) (-1) 2,
    -- 26: del x2
    .del 19,
    -- 27: del x3
    .del 20,
    -- 28: x4 = np.zeros((nocc[0], nocc[1], nvir[0], nvir[1]), dtype=types[float])
    .zeros 21 [0, 4, 1, 5],
    -- 29: x4 += einsum("ijab->ijab", t2.abab)
    .add 21 (.ein [(6, [0, 1, 2, 3])] [0, 1, 2, 3]) 1 1,
    -- 30: x4 += einsum("ia,jb->ijab", t1.aa, t1.bb)
    .add 21 (.ein [(5, [0, 1]), (2, [2, 3])] [0, 2, 1, 3]) 1 1,
    -- 31: e_cc += einsum("iajb,ijab->", v.aabb.ovov, x4)
    .add 18 (.ein [(7, [0, 1, 2, 3]), (21, [0, 2, 1, 3])] []) 1 1,
    -- 32: del x4
    .del 21,
    -- 33: x5 = np.zeros((nbos), dtype=types[float])
    .zeros 22 [2],
    -- 34: x5 += einsum("w->w", G)
    .add 22 (.ein [(8, [0])] [0]) 1 1,
    -- 35: x5 += einsum("ia,wia->w", t1.aa, g.aa.bov)
    .add 22 (.ein [(5, [0, 1]), (9, [2, 0, 1])] [2]) 1 1,
    -- 36: x5 += einsum("ia,wia->w", t1.bb, g.bb.bov)
    .add 22 (.ein [(2, [0, 1]), (10, [2, 0, 1])] [2]) 1 1,
    -- 37: e_cc += einsum("w,w->", s1, x5)
    .add 18 (.ein [(11, [0]), (22, [0])] []) 1 1,
    -- 38: del x5
    .del 22,
    -- 39: e_cc += einsum("wia,wia->", g.aa.bov, u11.aa)
    .add 18 (.ein [(9, [0, 1, 2]), (12, [0, 1, 2])] []) 1 1,
    -- 40: e_cc += einsum("wia,wia->", g.bb.bov, u11.bb)
    .add 18 (.ein [(10, [0, 1, 2]), (13, [0, 1, 2])] []) 1 1,
    -- 41: e_cc += einsum("ia,ia->", f.bb.ov, t1.bb)
    .add 18 (.ein [(14, [0, 1]), (2, [0, 1])] []) 1 1,
    -- 42: e_cc += einsum("ia,ia->", f.aa.ov, t1.aa)
    .add 18 (.ein [(15, [0, 1]), (5, [0, 1])] []) 1 1
  ]
  ret := [(chars! "e_cc", 18)]

/-- codegen/UCCSD_SD_1_1.py:46-1489 `update_amps`. -/
def update_amps : GenFun where
  args := [chars! "g.aa.boo", chars! "g.aa.bvo", chars! "g.aa.bov", chars! "g.aa.bvv", chars! "g.bb.boo", chars! "g.bb.bvo", chars! "g.bb.bov", chars! "g.bb.bvv", chars! "t1.aa", chars! "v.aaaa.ovov", chars! "t2.aaaa", chars! "v.aaaa.ooov", chars! "v.aaaa.ovvv", chars! "v.aabb.ovov", chars! "t2.abab", chars! "v.aabb.ooov", chars! "s1", chars! "t1.bb", chars! "u11.aa", chars! "f.aa.ov", chars! "t2.bbbb", chars! "v.bbbb.ovov", chars! "u11.bb", chars! "f.bb.ov", chars! "v.aaaa.ovvo", chars! "v.aaaa.oovv", chars! "f.aa.oo", chars! "v.bbaa.ovvv", chars! "f.aa.vv", chars! "G", chars! "s2", chars! "v.bbbb.ooov", chars! "v.bbbb.ovvv", chars! "v.aabb.ovoo", chars! "v.bbbb.ovvo", chars! "v.bbbb.oovv", chars! "f.bb.oo", chars! "v.aabb.ovvv", chars! "f.bb.vv", chars! "v.aaaa.vovv", chars! "v.bbaa.ovvo", chars! "v.aaaa.oovo", chars! "v.aaaa.oooo", chars! "v.aaaa.vvvv", chars! "v.bbbb.vovv", chars! "v.aabb.ovvo", chars! "v.bbbb.oovo", chars! "v.bbbb.vvvv", chars! "v.bbbb.oooo", chars! "v.aabb.vvvo", chars! "v.aabb.vvvv", chars! "v.aabb.oovv", chars! "v.aabb.oooo", chars! "v.bbaa.oovv", chars! "v.bbaa.oovo", chars! "v.aabb.oovo", chars! "v.aabb.vovv", chars! "w", chars! "f.aa.vo", chars! "f.bb.vo", chars! "v.aaaa.vovo", chars! "v.bbbb.vovo", chars! "v.aabb.vovo"]
  body := [
    -- 52: gc = Namespace(
    .set 63 (.tr 0 [0, 2, 1]) 1 1,
    .set 64 (.tr 1 [0, 2, 1]) 1 1,
    .set 65 (.tr 2 [0, 2, 1]) 1 1,
    .set 66 (.tr 3 [0, 2, 1]) 1 1,
    .set 67 (.tr 4 [0, 2, 1]) 1 1,
    .set 68 (.tr 5 [0, 2, 1]) 1 1,
    .set 69 (.tr 6 [0, 2, 1]) 1 1,
    .set 70 (.tr 7 [0, 2, 1]) 1 1,
    -- 68: x0 = np.zeros((nocc[0], nocc[0], nocc[0], nvir[0]), dtype=types[float])
    .zeros 71 [0, 0, 0, 1],
    -- 69: x0 += einsum("ia,jakb->ikjb", t1.aa, v.aaaa.ovov)
    .add 71 (.ein [(8, [0, 1]), (9, [2, 1, 3, 4])] [0, 3, 2, 4]) 1 1,
    -- 70: x1 = np.zeros((nocc[0], nocc[0], nocc[0], nvir[0]), dtype=types[float])
    .zeros 72 [0, 0, 0, 1],
    -- 71: x1 += einsum("ijka->ijka", x0) * -1
    .add 72 (.ein [(71, [0, 1, 2, 3])] [0, 1, 2, 3]) (-1) 1,
    -- 72: x1 += einsum("ijka->ikja", x0)
    .add 72 (.ein [(71, [0, 1, 2, 3])] [0, 2, 1, 3]) 1 1,
    -- 73: x98 = np.zeros((nocc[0], nocc[0], nocc[0], nvir[0]), dtype=types[float])
    .zeros 73 [0, 0, 0, 1],
    -- 74: x98 -= einsum("ijka->ijka", x0)
    .add 73 (.ein [(71, [0, 1, 2, 3])] [0, 1, 2, 3]) (-1) 1,
    -- 75: x98 += einsum("ijka->ikja", x0)
    .add 73 (.ein [(71, [0, 1, 2, 3])] [0, 2, 1, 3]) 1 1,
    -- 76: x124 = np.zeros((nocc[0], nocc[0], nocc[0], nocc[0]), dtype=types[float])
    .zeros 74 [0, 0, 0, 0],
    -- 77: x124 += einsum("ia,jkla->jilk", t1.aa, x0)
    .add 74 (.ein [(8, [0, 1]), (71, [2, 3, 4, 1])] [2, 0, 4, 3]) 1 1,
    -- 78: x125 = np.zeros((nocc[0], nocc[0], nocc[0], nvir[0]), dtype=types[float])
    .zeros 75 [0, 0, 0, 1],
    -- 79: x125 += einsum("ia,jkli->jkla", t1.aa, x124)
    .add 75 (.ein [(8, [0, 1]), (74, [2, 3, 4, 0])] [2, 3, 4, 1]) 1 1,
    -- 80: x126 = np.zeros((nocc[0], nocc[0], nvir[0], nvir[0]), dtype=types[float])
    .zeros 76 [0, 0, 1, 1],
    -- 81: x126 += einsum("ia,jkib->jkab", t1.aa, x125)
    .add 76 (.ein [(8, [0, 1]), (75, [2, 3, 0, 4])] [2, 3, 1, 4]) 1 1,
    -- 82: del x125
    .del 75,
    -- 83: x133 = np.zeros((nocc[0], nocc[0], nvir[0], nvir[0]), dtype=types[float])
    .zeros 77 [0, 0, 1, 1],
    -- 84: x133 += einsum("ijab->ijab", x126)
    .add 77 (.ein [(76, [0, 1, 2, 3])] [0, 1, 2, 3]) 1 1,
    -- 85: del x126
    .del 76,
    -- 86: x141 = np.zeros((nocc[0], nocc[0], nvir[0], nvir[0]), dtype=types[float])
    .zeros 78 [0, 0, 1, 1],
    -- 87: x141 += einsum("ijab,klji->lkab", t2.aaaa, x124)
    .add 78 (.ein [(10, [0, 1, 2, 3]), (74, [4, 5, 1, 0])] [5, 4, 2, 3]) 1 1,
    -- 88: del x124
    .del 74,
    -- 89: x145 = np.zeros((nocc[0], nocc[0], nvir[0], nvir[0]), dtype=types[float])
    .zeros 79 [0, 0, 1, 1],
    -- 90: x145 += einsum("ijab->ijab", x141)
    .add 79 (.ein [(78, [0, 1, 2, 3])] [0, 1, 2, 3]) 1 1,
    -- 91: del x141
    .del 78,
    -- 92: x284 = np.zeros((nocc[0], nocc[0], nocc[0], nvir[0]), dtype=types[float])
    .zeros 80 [0, 0, 0, 1],
    -- 93: x284 += einsum("ijka->jkia", x0) * -1
    .add 80 (.ein [(71, [0, 1, 2, 3])] [1, 2, 0, 3]) (-1) 1,
    -- 94: x284 += einsum("ijka->kjia", x0)
    .add 80 (.ein [(71, [0, 1, 2, 3])] [2, 1, 0, 3]) 1 1,
    -- 95: del x0
    .del 71,
    -- 96: x1 += einsum("ijka->jika", v.aaaa.ooov)
    .add 72 (.ein [(11, [0, 1, 2, 3])] [1, 0, 2, 3]) 1 1,
    -- 97: x1 += einsum("ijka->jkia", v.aaaa.ooov) * -1
    .add 72 (.ein [(11, [0, 1, 2, 3])] [1, 2, 0, 3]) (-1) 1,
    -- 98: t1new_aa = np.zeros((nocc[0], nvir[0]), dtype=types[float])
    .zeros 81 [0, 1],
    -- 99: t1new_aa += einsum("ijab,kjia->kb", t2.aaaa, x1) * -1
    .add 81 (.ein [(10, [0, 1, 2, 3]), (72, [4, 1, 0, 2])] [4, 3]) (-1) 1,
    -- 100: del x1
    .del 72,
    -- 101: x2 = np.zeros((nocc[0], nvir[0], nvir[0], nvir[0]), dtype=types[float])
    .zeros 82 [0, 1, 1, 1],
    -- 102: x2 += einsum("iabc->ibac", v.aaaa.ovvv)
    .add 82 (.ein [(12, [0, 1, 2, 3])] [0, 2, 1, 3]) 1 1,
    -- 103: x2 += einsum("iabc->ibca", v.aaaa.ovvv) * -1
    .add 82 (.ein [(12, [0, 1, 2, 3])] [0, 2, 3, 1]) (-1) 1,
    -- 104: x31 = np.zeros((nvir[0], nvir[0]), dtype=types[float])
    .zeros 83 [1, 1],
    -- 105: x31 += einsum("ia,ibca->bc", t1.aa, x2)
    .add 83 (.ein [(8, [0, 1]), (82, [0, 2, 3, 1])] [2, 3]) 1 1,
    -- 106: x32 = np.zeros((nvir[0], nvir[0]), dtype=types[float])
    .zeros 84 [1, 1],
    -- 107: x32 += einsum("ab->ab", x31) * -1
    .add 84 (.ein [(83, [0, 1])] [0, 1]) (-1) 1,
    -- 108: x280 = np.zeros((nvir[0], nvir[0]), dtype=types[float])
    .zeros 85 [1, 1],
    -- 109: x280 += einsum("ab->ab", x31) * -1
    .add 85 (.ein [(83, [0, 1])] [0, 1]) (-1) 1,
    -- 110: x321 = np.zeros((nvir[0], nvir[0]), dtype=types[float])
    .zeros 86 [1, 1],
    -- 111: x321 += einsum("ab->ab", x31) * -1
    .add 86 (.ein [(83, [0, 1])] [0, 1]) (-1) 1,
    -- 112: del x31
    .del 83,
    -- 113: x64 = np.zeros((nocc[0], nocc[0], nvir[0], nvir[0]), dtype=types[float])
    .zeros 87 [0, 0, 1, 1],
    -- 114: x64 += einsum("ia,jbac->ijbc", t1.aa, x2)
    .add 87 (.ein [(8, [0, 1]), (82, [2, 3, 1, 4])] [0, 2, 3, 4]) 1 1,
    -- 115: t1new_aa += einsum("ijab,icba->jc", t2.aaaa, x2) * -1
    .add 81 (.ein [(10, [0, 1, 2, 3]), (82, [0, 4, 3, 2])] [1, 4]) (-1) 1,
    -- 116: del x2
    .del 82,
    -- 117: x3 = np.zeros((nocc[0], nocc[0], nocc[1], nvir[1]), dtype=types[float])
    .zeros 88 [0, 0, 4, 5],
    -- 118: x3 += einsum("ia,jakb->ijkb", t1.aa, v.aabb.ovov)
    .add 88 (.ein [(8, [0, 1]), (13, [2, 1, 3, 4])] [0, 2, 3, 4]) 1 1,
    -- 119: x4 = np.zeros((nocc[0], nocc[0], nocc[1], nvir[1]), dtype=types[float])
    .zeros 89 [0, 0, 4, 5],
    -- 120: x4 += einsum("ijka->jika", x3)
    .add 89 (.ein [(88, [0, 1, 2, 3])] [1, 0, 2, 3]) 1 1,
    -- 121: x79 = np.zeros((nocc[0], nocc[0], nocc[0], nvir[0]), dtype=types[float])
    .zeros 90 [0, 0, 0, 1],
    -- 122: x79 += einsum("ijab,kljb->kila", t2.abab, x3)
    .add 90 (.ein [(14, [0, 1, 2, 3]), (88, [4, 5, 1, 3])] [4, 0, 5, 2]) 1 1,
    -- 123: del x3
    .del 88,
    -- 124: x83 = np.zeros((nocc[0], nocc[0], nocc[0], nvir[0]), dtype=types[float])
    .zeros 91 [0, 0, 0, 1],
    -- 125: x83 += einsum("ijka->ikja", x79)
    .add 91 (.ein [(90, [0, 1, 2, 3])] [0, 2, 1, 3]) 1 1,
    -- 126: del x79
    .del 90,
    -- 127: x4 += einsum("ijka->ijka", v.aabb.ooov)
    .add 89 (.ein [(15, [0, 1, 2, 3])] [0, 1, 2, 3]) 1 1,
    -- 128: x267 = np.zeros((nocc[0], nocc[1], nocc[1], nvir[0]), dtype=types[float])
    .zeros 92 [0, 4, 4, 1],
    -- 129: x267 += einsum("ijab,iklb->kjla", t2.abab, x4)
    .add 92 (.ein [(14, [0, 1, 2, 3]), (89, [0, 4, 5, 3])] [4, 1, 5, 2]) 1 1,
    -- 130: x274 = np.zeros((nocc[0], nocc[1], nocc[1], nvir[0]), dtype=types[float])
    .zeros 93 [0, 4, 4, 1],
    -- 131: x274 += einsum("ijka->ikja", x267) * -1
    .add 93 (.ein [(92, [0, 1, 2, 3])] [0, 2, 1, 3]) (-1) 1,
    -- 132: del x267
    .del 92,
    -- 133: t1new_aa += einsum("ijab,ikjb->ka", t2.abab, x4) * -1
    .add 81 (.ein [(14, [0, 1, 2, 3]), (89, [0, 4, 1, 3])] [4, 2]) (-1) 1,
    -- 134: x5 = np.zeros((nocc[0], nvir[0]), dtype=types[float])
    .zeros 94 [0, 1],
    -- 135: x5 += einsum("w,wia->ia", s1, g.aa.bov)
    .add 94 (.ein [(16, [0]), (2, [0, 1, 2])] [1, 2]) 1 1,
    -- 136: x9 = np.zeros((nocc[0], nvir[0]), dtype=types[float])
    .zeros 95 [0, 1],
    -- 137: x9 += einsum("ia->ia", x5)
    .add 95 (.ein [(94, [0, 1])] [0, 1]) 1 1,
    -- 138: x102 = np.zeros((nocc[0], nvir[0]), dtype=types[float])
    .zeros 96 [0, 1],
    -- 139: x102 += einsum("ia->ia", x5)
    .add 96 (.ein [(94, [0, 1])] [0, 1]) 1 1,
    -- 140: x300 = np.zeros((nocc[0], nvir[0]), dtype=types[float])
    .zeros 97 [0, 1],
    -- 141: x300 += einsum("ia->ia", x5)
    .add 97 (.ein [(94, [0, 1])] [0, 1]) 1 1,
    -- 142: x322 = np.zeros((nocc[0], nvir[0]), dtype=types[float])
    .zeros 98 [0, 1],
    -- 143: x322 += einsum("ia->ia", x5)
    .add 98 (.ein [(94, [0, 1])] [0, 1]) 1 1,
    -- 144: del x5
    .del 94,
    -- 145: x6 = np.zeros((nocc[0], nvir[0]), dtype=types[float])
    .zeros 99 [0, 1],
    -- 146: x6 += einsum("ia,jbia->jb", t1.bb, v.aabb.ovov)
    .add 99 (.ein [(17, [0, 1]), (13, [2, 3, 0, 1])] [2, 3]) 1 1,
    -- 147: x9 += einsum("ia->ia", x6)
    .add 95 (.ein [(99, [0, 1])] [0, 1]) 1 1,
    -- 148: x61 = np.zeros((nocc[0], nocc[0]), dtype=types[float])
    .zeros 100 [0, 0],
    -- 149: x61 += einsum("ia,ja->ij", t1.aa, x6)
    .add 100 (.ein [(8, [0, 1]), (99, [2, 1])] [0, 2]) 1 1,
    -- 150: x62 = np.zeros((nocc[0], nocc[0], nvir[0], nvir[0]), dtype=types[float])
    .zeros 101 [0, 0, 1, 1],
    -- 151: x62 += einsum("ij,kjab->ikab", x61, t2.aaaa)
    .add 101 (.ein [(100, [0, 1]), (10, [2, 1, 3, 4])] [0, 2, 3, 4]) 1 1,
    -- 152: del x61
    .del 100,
    -- 153: x87 = np.zeros((nocc[0], nocc[0], nvir[0], nvir[0]), dtype=types[float])
    .zeros 102 [0, 0, 1, 1],
    -- 154: x87 += einsum("ijab->ijab", x62) * -1
    .add 102 (.ein [(101, [0, 1, 2, 3])] [0, 1, 2, 3]) (-1) 1,
    -- 155: del x62
    .del 101,
    -- 156: x80 = np.zeros((nocc[0], nocc[0], nocc[0], nvir[0]), dtype=types[float])
    .zeros 103 [0, 0, 0, 1],
    -- 157: x80 += einsum("ia,jkba->jkib", x6, t2.aaaa)
    .add 103 (.ein [(99, [0, 1]), (10, [2, 3, 4, 1])] [2, 3, 0, 4]) 1 1,
    -- 158: x83 += einsum("ijka->ikja", x80) * -1
    .add 91 (.ein [(103, [0, 1, 2, 3])] [0, 2, 1, 3]) (-1) 1,
    -- 159: del x80
    .del 103,
    -- 160: x300 += einsum("ia->ia", x6)
    .add 97 (.ein [(99, [0, 1])] [0, 1]) 1 1,
    -- 161: x320 = np.zeros((nocc[0], nvir[0]), dtype=types[float])
    .zeros 104 [0, 1],
    -- 162: x320 += einsum("ia->ia", x6)
    .add 104 (.ein [(99, [0, 1])] [0, 1]) 1 1,
    -- 163: del x6
    .del 99,
    -- 164: x7 = np.zeros((nocc[0], nocc[0], nvir[0], nvir[0]), dtype=types[float])
    .zeros 105 [0, 0, 1, 1],
    -- 165: x7 += einsum("iajb->jiab", v.aaaa.ovov)
    .add 105 (.ein [(9, [0, 1, 2, 3])] [2, 0, 1, 3]) 1 1,
    -- 166: x7 += einsum("iajb->jiba", v.aaaa.ovov) * -1
    .add 105 (.ein [(9, [0, 1, 2, 3])] [2, 0, 3, 1]) (-1) 1,
    -- 167: x8 = np.zeros((nocc[0], nvir[0]), dtype=types[float])
    .zeros 106 [0, 1],
    -- 168: x8 += einsum("ia,ijab->jb", t1.aa, x7)
    .add 106 (.ein [(8, [0, 1]), (105, [0, 2, 1, 3])] [2, 3]) 1 1,
    -- 169: x9 += einsum("ia->ia", x8) * -1
    .add 95 (.ein [(106, [0, 1])] [0, 1]) (-1) 1,
    -- 170: x320 += einsum("ia->ia", x8) * -1
    .add 104 (.ein [(106, [0, 1])] [0, 1]) (-1) 1,
    -- 171: del x8
    .del 106,
    -- 172: x321 += einsum("ia,ib->ab", t1.aa, x320) * -1
    .add 86 (.ein [(8, [0, 1]), (104, [0, 2])] [1, 2]) (-1) 1,
    -- 173: del x320
    .del 104,
    -- 174: x70 = np.zeros((nvir[0], nvir[0]), dtype=types[float])
    .zeros 107 [1, 1],
    -- 175: x70 += einsum("ijab,ijac->bc", t2.aaaa, x7)
    .add 107 (.ein [(10, [0, 1, 2, 3]), (105, [0, 1, 2, 4])] [3, 4]) 1 1,
    -- 176: x73 = np.zeros((nvir[0], nvir[0]), dtype=types[float])
    .zeros 108 [1, 1],
    -- 177: x73 += einsum("ab->ab", x70) * -1
    .add 108 (.ein [(107, [0, 1])] [0, 1]) (-1) 1,
    -- 178: del x70
    .del 107,
    -- 179: x279 = np.zeros((nvir[0], nvir[0]), dtype=types[float])
    .zeros 109 [1, 1],
    -- 180: x279 += einsum("ijab,ijca->bc", t2.aaaa, x7)
    .add 109 (.ein [(10, [0, 1, 2, 3]), (105, [0, 1, 4, 2])] [3, 4]) 1 1,
    -- 181: x280 += einsum("ab->ab", x279) * -1
    .add 85 (.ein [(109, [0, 1])] [0, 1]) (-1) 1,
    -- 182: x321 += einsum("ab->ab", x279) * -1
    .add 86 (.ein [(109, [0, 1])] [0, 1]) (-1) 1,
    -- 183: del x279
    .del 109,
    -- 184: x315 = np.zeros((nbos, nocc[0], nvir[0]), dtype=types[float])
    .zeros 110 [2, 0, 1],
    -- 185: x315 += einsum("wia,ijab->wjb", u11.aa, x7)
    .add 110 (.ein [(18, [0, 1, 2]), (105, [1, 3, 2, 4])] [0, 3, 4]) 1 1,
    -- 186: x316 = np.zeros((nbos, nocc[0], nvir[0]), dtype=types[float])
    .zeros 111 [2, 0, 1],
    -- 187: x316 += einsum("wia->wia", x315) * -1
    .add 111 (.ein [(110, [0, 1, 2])] [0, 1, 2]) (-1) 1,
    -- 188: del x315
    .del 110,
    -- 189: x9 += einsum("ia->ia", f.aa.ov)
    .add 95 (.ein [(19, [0, 1])] [0, 1]) 1 1,
    -- 190: x27 = np.zeros((nocc[0], nocc[0]), dtype=types[float])
    .zeros 112 [0, 0],
    -- 191: x27 += einsum("ia,ja->ij", t1.aa, x9)
    .add 112 (.ein [(8, [0, 1]), (95, [2, 1])] [0, 2]) 1 1,
    -- 192: x28 = np.zeros((nocc[0], nocc[0]), dtype=types[float])
    .zeros 113 [0, 0],
    -- 193: x28 += einsum("ij->ji", x27)
    .add 113 (.ein [(112, [0, 1])] [1, 0]) 1 1,
    -- 194: del x27
    .del 112,
    -- 195: x288 = np.zeros((nocc[0], nocc[0], nocc[1], nvir[1]), dtype=types[float])
    .zeros 114 [0, 0, 4, 5],
    -- 196: x288 += einsum("ia,jkab->jikb", x9, t2.abab)
    .add 114 (.ein [(95, [0, 1]), (14, [2, 3, 1, 4])] [2, 0, 3, 4]) 1 1,
    -- 197: x291 = np.zeros((nocc[0], nocc[0], nocc[1], nvir[1]), dtype=types[float])
    .zeros 115 [0, 0, 4, 5],
    -- 198: x291 += einsum("ijka->jika", x288)
    .add 115 (.ein [(114, [0, 1, 2, 3])] [1, 0, 2, 3]) 1 1,
    -- 199: del x288
    .del 114,
    -- 200: t1new_bb = np.zeros((nocc[1], nvir[1]), dtype=types[float])
    .zeros 116 [4, 5],
    -- 201: t1new_bb += einsum("ia,ijab->jb", x9, t2.abab)
    .add 116 (.ein [(95, [0, 1]), (14, [0, 2, 1, 3])] [2, 3]) 1 1,
    -- 202: x10 = np.zeros((nocc[0], nocc[0], nvir[0], nvir[0]), dtype=types[float])
    .zeros 117 [0, 0, 1, 1],
    -- 203: x10 += einsum("ijab->jiab", t2.aaaa)
    .add 117 (.ein [(10, [0, 1, 2, 3])] [1, 0, 2, 3]) 1 1,
    -- 204: x10 -= einsum("ijab->jiba", t2.aaaa)
    .add 117 (.ein [(10, [0, 1, 2, 3])] [1, 0, 3, 2]) (-1) 1,
    -- 205: x112 = np.zeros((nbos, nocc[0], nvir[0]), dtype=types[float])
    .zeros 118 [2, 0, 1],
    -- 206: x112 += einsum("wia,ijab->wjb", g.aa.bov, x10)
    .add 118 (.ein [(2, [0, 1, 2]), (117, [1, 3, 2, 4])] [0, 3, 4]) 1 1,
    -- 207: x114 = np.zeros((nbos, nocc[0], nvir[0]), dtype=types[float])
    .zeros 119 [2, 0, 1],
    -- 208: x114 -= einsum("wia->wia", x112)
    .add 119 (.ein [(118, [0, 1, 2])] [0, 1, 2]) (-1) 1,
    -- 209: del x112
    .del 118,
    -- 210: t1new_aa += einsum("ia,ijab->jb", x9, x10) * -1
    .add 81 (.ein [(95, [0, 1]), (117, [0, 2, 1, 3])] [2, 3]) (-1) 1,
    -- 211: del x9
    .del 95,
    -- 212: x11 = np.zeros((nocc[1], nvir[1]), dtype=types[float])
    .zeros 120 [4, 5],
    -- 213: x11 += einsum("w,wia->ia", s1, g.bb.bov)
    .add 120 (.ein [(16, [0]), (6, [0, 1, 2])] [1, 2]) 1 1,
    -- 214: x15 = np.zeros((nocc[1], nvir[1]), dtype=types[float])
    .zeros 121 [4, 5],
    -- 215: x15 += einsum("ia->ia", x11)
    .add 121 (.ein [(120, [0, 1])] [0, 1]) 1 1,
    -- 216: x159 = np.zeros((nocc[1], nvir[1]), dtype=types[float])
    .zeros 122 [4, 5],
    -- 217: x159 += einsum("ia->ia", x11)
    .add 122 (.ein [(120, [0, 1])] [0, 1]) 1 1,
    -- 218: x301 = np.zeros((nocc[1], nvir[1]), dtype=types[float])
    .zeros 123 [4, 5],
    -- 219: x301 += einsum("ia->ia", x11)
    .add 123 (.ein [(120, [0, 1])] [0, 1]) 1 1,
    -- 220: x328 = np.zeros((nocc[1], nvir[1]), dtype=types[float])
    .zeros 124 [4, 5],
    -- 221: x328 += einsum("ia->ia", x11)
    .add 124 (.ein [(120, [0, 1])] [0, 1]) 1 1,
    -- 222: del x11
    .del 120,
    -- 223: x12 = np.zeros((nocc[1], nvir[1]), dtype=types[float])
    .zeros 125 [4, 5],
    -- 224: x12 += einsum("ia,iajb->jb", t1.aa, v.aabb.ovov)
    .add 125 (.ein [(8, [0, 1]), (13, [0, 1, 2, 3])] [2, 3]) 1 1,
    -- 225: x15 += einsum("ia->ia", x12)
    .add 121 (.ein [(125, [0, 1])] [0, 1]) 1 1,
    -- 226: x201 = np.zeros((nocc[1], nocc[1], nocc[1], nvir[1]), dtype=types[float])
    .zeros 126 [4, 4, 4, 5],
    -- 227: x201 += einsum("ia,jkab->kjib", x12, t2.bbbb)
    .add 126 (.ein [(125, [0, 1]), (20, [2, 3, 1, 4])] [3, 2, 0, 4]) 1 1,
    -- 228: x205 = np.zeros((nocc[1], nocc[1], nocc[1], nvir[1]), dtype=types[float])
    .zeros 127 [4, 4, 4, 5],
    -- 229: x205 += einsum("ijka->ikja", x201) * -1
    .add 127 (.ein [(126, [0, 1, 2, 3])] [0, 2, 1, 3]) (-1) 1,
    -- 230: del x201
    .del 126,
    -- 231: x216 = np.zeros((nocc[1], nocc[1]), dtype=types[float])
    .zeros 128 [4, 4],
    -- 232: x216 += einsum("ia,ja->ij", t1.bb, x12)
    .add 128 (.ein [(17, [0, 1]), (125, [2, 1])] [0, 2]) 1 1,
    -- 233: x217 = np.zeros((nocc[1], nocc[1]), dtype=types[float])
    .zeros 129 [4, 4],
    -- 234: x217 += einsum("ij->ij", x216)
    .add 129 (.ein [(128, [0, 1])] [0, 1]) 1 1,
    -- 235: del x216
    .del 128,
    -- 236: x301 += einsum("ia->ia", x12)
    .add 123 (.ein [(125, [0, 1])] [0, 1]) 1 1,
    -- 237: x326 = np.zeros((nocc[1], nvir[1]), dtype=types[float])
    .zeros 130 [4, 5],
    -- 238: x326 += einsum("ia->ia", x12)
    .add 130 (.ein [(125, [0, 1])] [0, 1]) 1 1,
    -- 239: del x12
    .del 125,
    -- 240: x13 = np.zeros((nocc[1], nocc[1], nvir[1], nvir[1]), dtype=types[float])
    .zeros 131 [4, 4, 5, 5],
    -- 241: x13 += einsum("iajb->jiab", v.bbbb.ovov) * -1
    .add 131 (.ein [(21, [0, 1, 2, 3])] [2, 0, 1, 3]) (-1) 1,
    -- 242: x13 += einsum("iajb->jiba", v.bbbb.ovov)
    .add 131 (.ein [(21, [0, 1, 2, 3])] [2, 0, 3, 1]) 1 1,
    -- 243: x14 = np.zeros((nocc[1], nvir[1]), dtype=types[float])
    .zeros 132 [4, 5],
    -- 244: x14 += einsum("ia,ijba->jb", t1.bb, x13)
    .add 132 (.ein [(17, [0, 1]), (131, [0, 2, 3, 1])] [2, 3]) 1 1,
    -- 245: x15 += einsum("ia->ia", x14) * -1
    .add 121 (.ein [(132, [0, 1])] [0, 1]) (-1) 1,
    -- 246: x326 += einsum("ia->ia", x14) * -1
    .add 130 (.ein [(132, [0, 1])] [0, 1]) (-1) 1,
    -- 247: del x14
    .del 132,
    -- 248: x327 = np.zeros((nvir[1], nvir[1]), dtype=types[float])
    .zeros 133 [5, 5],
    -- 249: x327 += einsum("ia,ib->ab", t1.bb, x326) * -1
    .add 133 (.ein [(17, [0, 1]), (130, [0, 2])] [1, 2]) (-1) 1,
    -- 250: del x326
    .del 130,
    -- 251: x49 = np.zeros((nocc[1], nocc[1]), dtype=types[float])
    .zeros 134 [4, 4],
    -- 252: x49 += einsum("ijab,ikba->kj", t2.bbbb, x13)
    .add 134 (.ein [(20, [0, 1, 2, 3]), (131, [0, 4, 3, 2])] [4, 1]) 1 1,
    -- 253: x53 = np.zeros((nocc[1], nocc[1]), dtype=types[float])
    .zeros 135 [4, 4],
    -- 254: x53 += einsum("ij->ij", x49) * -1
    .add 135 (.ein [(134, [0, 1])] [0, 1]) (-1) 1,
    -- 255: del x49
    .del 134,
    -- 256: x237 = np.zeros((nocc[0], nocc[1], nvir[0], nvir[1]), dtype=types[float])
    .zeros 136 [0, 4, 1, 5],
    -- 257: x237 += einsum("ijab,jkcb->ikac", t2.abab, x13)
    .add 136 (.ein [(14, [0, 1, 2, 3]), (131, [1, 4, 5, 3])] [0, 4, 2, 5]) 1 1,
    -- 258: x238 = np.zeros((nocc[0], nocc[1], nvir[0], nvir[1]), dtype=types[float])
    .zeros 137 [0, 4, 1, 5],
    -- 259: x238 += einsum("ijab->ijab", x237) * -1
    .add 137 (.ein [(136, [0, 1, 2, 3])] [0, 1, 2, 3]) (-1) 1,
    -- 260: del x237
    .del 136,
    -- 261: x318 = np.zeros((nbos, nocc[1], nvir[1]), dtype=types[float])
    .zeros 138 [2, 4, 5],
    -- 262: x318 += einsum("wia,ijba->wjb", u11.bb, x13)
    .add 138 (.ein [(22, [0, 1, 2]), (131, [1, 3, 4, 2])] [0, 3, 4]) 1 1,
    -- 263: del x13
    .del 131,
    -- 264: x319 = np.zeros((nbos, nocc[1], nvir[1]), dtype=types[float])
    .zeros 139 [2, 4, 5],
    -- 265: x319 += einsum("wia->wia", x318) * -1
    .add 139 (.ein [(138, [0, 1, 2])] [0, 1, 2]) (-1) 1,
    -- 266: del x318
    .del 138,
    -- 267: x15 += einsum("ia->ia", f.bb.ov)
    .add 121 (.ein [(23, [0, 1])] [0, 1]) 1 1,
    -- 268: x52 = np.zeros((nocc[1], nocc[1]), dtype=types[float])
    .zeros 140 [4, 4],
    -- 269: x52 += einsum("ia,ja->ij", t1.bb, x15)
    .add 140 (.ein [(17, [0, 1]), (121, [2, 1])] [0, 2]) 1 1,
    -- 270: x53 += einsum("ij->ji", x52)
    .add 135 (.ein [(140, [0, 1])] [1, 0]) 1 1,
    -- 271: del x52
    .del 140,
    -- 272: x268 = np.zeros((nocc[0], nocc[1], nocc[1], nvir[0]), dtype=types[float])
    .zeros 141 [0, 4, 4, 1],
    -- 273: x268 += einsum("ia,jkba->jkib", x15, t2.abab)
    .add 141 (.ein [(121, [0, 1]), (14, [2, 3, 4, 1])] [2, 3, 0, 4]) 1 1,
    -- 274: x274 += einsum("ijka->ikja", x268)
    .add 93 (.ein [(141, [0, 1, 2, 3])] [0, 2, 1, 3]) 1 1,
    -- 275: del x268
    .del 141,
    -- 276: t1new_aa += einsum("ia,jiba->jb", x15, t2.abab)
    .add 81 (.ein [(121, [0, 1]), (14, [2, 0, 3, 1])] [2, 3]) 1 1,
    -- 277: x16 = np.zeros((nocc[0], nocc[0], nvir[0], nvir[0]), dtype=types[float])
    .zeros 142 [0, 0, 1, 1],
    -- 278: x16 += einsum("iabj->ijba", v.aaaa.ovvo)
    .add 142 (.ein [(24, [0, 1, 2, 3])] [0, 3, 2, 1]) 1 1,
    -- 279: x16 -= einsum("ijab->ijab", v.aaaa.oovv)
    .add 142 (.ein [(25, [0, 1, 2, 3])] [0, 1, 2, 3]) (-1) 1,
    -- 280: x104 = np.zeros((nocc[0], nocc[0], nocc[0], nvir[0]), dtype=types[float])
    .zeros 143 [0, 0, 0, 1],
    -- 281: x104 += einsum("ia,jkba->ijkb", t1.aa, x16)
    .add 143 (.ein [(8, [0, 1]), (142, [2, 3, 4, 1])] [0, 2, 3, 4]) 1 1,
    -- 282: x105 = np.zeros((nocc[0], nocc[0], nocc[0], nvir[0]), dtype=types[float])
    .zeros 144 [0, 0, 0, 1],
    -- 283: x105 -= einsum("ijka->jika", x104)
    .add 144 (.ein [(143, [0, 1, 2, 3])] [1, 0, 2, 3]) (-1) 1,
    -- 284: del x104
    .del 143,
    -- 285: t1new_aa += einsum("ia,ijba->jb", t1.aa, x16)
    .add 81 (.ein [(8, [0, 1]), (142, [0, 2, 3, 1])] [2, 3]) 1 1,
    -- 286: u11new_aa = np.zeros((nbos, nocc[0], nvir[0]), dtype=types[float])
    .zeros 145 [2, 0, 1],
    -- 287: u11new_aa += einsum("wia,ijba->wjb", u11.aa, x16)
    .add 145 (.ein [(18, [0, 1, 2]), (142, [1, 3, 4, 2])] [0, 3, 4]) 1 1,
    -- 288: x17 = np.zeros((nbos, nocc[0], nocc[0]), dtype=types[float])
    .zeros 146 [2, 0, 0],
    -- 289: x17 += einsum("ia,wja->wji", t1.aa, g.aa.bov)
    .add 146 (.ein [(8, [0, 1]), (2, [2, 3, 1])] [2, 3, 0]) 1 1,
    -- 290: x18 = np.zeros((nbos, nocc[0], nocc[0]), dtype=types[float])
    .zeros 147 [2, 0, 0],
    -- 291: x18 += einsum("wij->wij", x17)
    .add 147 (.ein [(146, [0, 1, 2])] [0, 1, 2]) 1 1,
    -- 292: del x17
    .del 146,
    -- 293: x18 += einsum("wij->wij", g.aa.boo)
    .add 147 (.ein [(0, [0, 1, 2])] [0, 1, 2]) 1 1,
    -- 294: x113 = np.zeros((nbos, nocc[0], nvir[0]), dtype=types[float])
    .zeros 148 [2, 0, 1],
    -- 295: x113 += einsum("ia,wij->wja", t1.aa, x18)
    .add 148 (.ein [(8, [0, 1]), (147, [2, 0, 3])] [2, 3, 1]) 1 1,
    -- 296: x114 -= einsum("wia->wia", x113)
    .add 119 (.ein [(148, [0, 1, 2])] [0, 1, 2]) (-1) 1,
    -- 297: del x113
    .del 148,
    -- 298: t1new_aa -= einsum("wia,wij->ja", u11.aa, x18)
    .add 81 (.ein [(18, [0, 1, 2]), (147, [0, 1, 3])] [3, 2]) (-1) 1,
    -- 299: del x18
    .del 147,
    -- 300: x19 = np.zeros((nocc[0], nocc[0]), dtype=types[float])
    .zeros 149 [0, 0],
    -- 301: x19 += einsum("w,wij->ij", s1, g.aa.boo)
    .add 149 (.ein [(16, [0]), (0, [0, 1, 2])] [1, 2]) 1 1,
    -- 302: x28 += einsum("ij->ij", x19)
    .add 113 (.ein [(149, [0, 1])] [0, 1]) 1 1,
    -- 303: x108 = np.zeros((nocc[0], nocc[0]), dtype=types[float])
    .zeros 150 [0, 0],
    -- 304: x108 += einsum("ij->ji", x19)
    .add 150 (.ein [(149, [0, 1])] [1, 0]) 1 1,
    -- 305: del x19
    .del 149,
    -- 306: x20 = np.zeros((nocc[0], nocc[0]), dtype=types[float])
    .zeros 151 [0, 0],
    -- 307: x20 += einsum("wia,wja->ij", g.aa.bov, u11.aa)
    .add 151 (.ein [(2, [0, 1, 2]), (18, [0, 3, 2])] [1, 3]) 1 1,
    -- 308: x28 += einsum("ij->ij", x20)
    .add 113 (.ein [(151, [0, 1])] [0, 1]) 1 1,
    -- 309: x121 = np.zeros((nocc[0], nocc[0]), dtype=types[float])
    .zeros 152 [0, 0],
    -- 310: x121 += einsum("ij->ij", x20)
    .add 152 (.ein [(151, [0, 1])] [0, 1]) 1 1,
    -- 311: del x20
    .del 151,
    -- 312: x21 = np.zeros((nocc[0], nocc[0]), dtype=types[float])
    .zeros 153 [0, 0],
    -- 313: x21 += einsum("ia,jkia->jk", t1.bb, v.aabb.ooov)
    .add 153 (.ein [(17, [0, 1]), (15, [2, 3, 0, 1])] [2, 3]) 1 1,
    -- 314: x28 += einsum("ij->ij", x21)
    .add 113 (.ein [(153, [0, 1])] [0, 1]) 1 1,
    -- 315: x121 += einsum("ij->ij", x21)
    .add 152 (.ein [(153, [0, 1])] [0, 1]) 1 1,
    -- 316: del x21
    .del 153,
    -- 317: x122 = np.zeros((nocc[0], nocc[0], nvir[0], nvir[0]), dtype=types[float])
    .zeros 154 [0, 0, 1, 1],
    -- 318: x122 += einsum("ij,ikab->kjab", x121, t2.aaaa)
    .add 154 (.ein [(152, [0, 1]), (10, [0, 2, 3, 4])] [2, 1, 3, 4]) 1 1,
    -- 319: del x121
    .del 152,
    -- 320: x123 = np.zeros((nocc[0], nocc[0], nvir[0], nvir[0]), dtype=types[float])
    .zeros 155 [0, 0, 1, 1],
    -- 321: x123 -= einsum("ijab->ijba", x122)
    .add 155 (.ein [(154, [0, 1, 2, 3])] [0, 1, 3, 2]) (-1) 1,
    -- 322: del x122
    .del 154,
    -- 323: x22 = np.zeros((nocc[0], nocc[0]), dtype=types[float])
    .zeros 156 [0, 0],
    -- 324: x22 += einsum("ijab,kajb->ik", t2.abab, v.aabb.ovov)
    .add 156 (.ein [(14, [0, 1, 2, 3]), (13, [4, 2, 1, 3])] [0, 4]) 1 1,
    -- 325: x28 += einsum("ij->ji", x22)
    .add 113 (.ein [(156, [0, 1])] [1, 0]) 1 1,
    -- 326: x85 = np.zeros((nocc[0], nocc[0]), dtype=types[float])
    .zeros 157 [0, 0],
    -- 327: x85 += einsum("ij->ji", x22)
    .add 157 (.ein [(156, [0, 1])] [1, 0]) 1 1,
    -- 328: del x22
    .del 156,
    -- 329: x23 = np.zeros((nocc[0], nocc[0], nvir[0], nvir[0]), dtype=types[float])
    .zeros 158 [0, 0, 1, 1],
    -- 330: x23 += einsum("iajb->jiab", v.aaaa.ovov) * -1
    .add 158 (.ein [(9, [0, 1, 2, 3])] [2, 0, 1, 3]) (-1) 1,
    -- 331: x23 += einsum("iajb->jiba", v.aaaa.ovov)
    .add 158 (.ein [(9, [0, 1, 2, 3])] [2, 0, 3, 1]) 1 1,
    -- 332: x24 = np.zeros((nocc[0], nocc[0]), dtype=types[float])
    .zeros 159 [0, 0],
    -- 333: x24 += einsum("ijab,ikba->jk", t2.aaaa, x23)
    .add 159 (.ein [(10, [0, 1, 2, 3]), (158, [0, 4, 3, 2])] [1, 4]) 1 1,
    -- 334: del x23
    .del 158,
    -- 335: x28 += einsum("ij->ji", x24) * -1
    .add 113 (.ein [(159, [0, 1])] [1, 0]) (-1) 1,
    -- 336: x85 += einsum("ij->ji", x24) * -1
    .add 157 (.ein [(159, [0, 1])] [1, 0]) (-1) 1,
    -- 337: del x24
    .del 159,
    -- 338: x25 = np.zeros((nocc[0], nocc[0], nocc[0], nvir[0]), dtype=types[float])
    .zeros 160 [0, 0, 0, 1],
    -- 339: x25 += einsum("ijka->ikja", v.aaaa.ooov)
    .add 160 (.ein [(11, [0, 1, 2, 3])] [0, 2, 1, 3]) 1 1,
    -- 340: x25 += einsum("ijka->kija", v.aaaa.ooov) * -1
    .add 160 (.ein [(11, [0, 1, 2, 3])] [2, 0, 1, 3]) (-1) 1,
    -- 341: x26 = np.zeros((nocc[0], nocc[0]), dtype=types[float])
    .zeros 161 [0, 0],
    -- 342: x26 += einsum("ia,ijka->jk", t1.aa, x25)
    .add 161 (.ein [(8, [0, 1]), (160, [0, 2, 3, 1])] [2, 3]) 1 1,
    -- 343: x28 += einsum("ij->ij", x26) * -1
    .add 113 (.ein [(161, [0, 1])] [0, 1]) (-1) 1,
    -- 344: x85 += einsum("ij->ij", x26) * -1
    .add 157 (.ein [(161, [0, 1])] [0, 1]) (-1) 1,
    -- 345: del x26
    .del 161,
    -- 346: x86 = np.zeros((nocc[0], nocc[0], nvir[0], nvir[0]), dtype=types[float])
    .zeros 162 [0, 0, 1, 1],
    -- 347: x86 += einsum("ij,ikab->kjab", x85, t2.aaaa)
    .add 162 (.ein [(157, [0, 1]), (10, [0, 2, 3, 4])] [2, 1, 3, 4]) 1 1,
    -- 348: del x85
    .del 157,
    -- 349: x87 += einsum("ijab->ijba", x86)
    .add 102 (.ein [(162, [0, 1, 2, 3])] [0, 1, 3, 2]) 1 1,
    -- 350: del x86
    .del 162,
    -- 351: x323 = np.zeros((nbos, nocc[0], nocc[0]), dtype=types[float])
    .zeros 163 [2, 0, 0],
    -- 352: x323 += einsum("wia,ijka->wjk", u11.aa, x25) * -1
    .add 163 (.ein [(18, [0, 1, 2]), (160, [1, 3, 4, 2])] [0, 3, 4]) (-1) 1,
    -- 353: del x25
    .del 160,
    -- 354: x28 += einsum("ij->ij", f.aa.oo)
    .add 113 (.ein [(26, [0, 1])] [0, 1]) 1 1,
    -- 355: x294 = np.zeros((nocc[0], nocc[1], nvir[0], nvir[1]), dtype=types[float])
    .zeros 164 [0, 4, 1, 5],
    -- 356: x294 += einsum("ij,ikab->jkab", x28, t2.abab)
    .add 164 (.ein [(113, [0, 1]), (14, [0, 2, 3, 4])] [1, 2, 3, 4]) 1 1,
    -- 357: t2new_baba = np.zeros((nocc[1], nocc[0], nvir[1], nvir[0]), dtype=types[float])
    .zeros 165 [4, 0, 5, 1],
    -- 358: t2new_baba += einsum("ijab->jiba", x294) * -1
    .add 165 (.ein [(164, [0, 1, 2, 3])] [1, 0, 3, 2]) (-1) 1,
    -- 359: t2new_abab = np.zeros((nocc[0], nocc[1], nvir[0], nvir[1]), dtype=types[float])
    .zeros 166 [0, 4, 1, 5],
    -- 360: t2new_abab += einsum("ijab->ijab", x294) * -1
    .add 166 (.ein [(164, [0, 1, 2, 3])] [0, 1, 2, 3]) (-1) 1,
    -- 361: del x294
    .del 164,
    -- 362: t1new_aa += einsum("ia,ij->ja", t1.aa, x28) * -1
    .add 81 (.ein [(8, [0, 1]), (113, [0, 2])] [2, 1]) (-1) 1,
    -- 363: u11new_aa += einsum("ij,wia->wja", x28, u11.aa) * -1
    .add 145 (.ein [(113, [0, 1]), (18, [2, 0, 3])] [2, 1, 3]) (-1) 1,
    -- 364: del x28
    .del 113,
    -- 365: x29 = np.zeros((nvir[0], nvir[0]), dtype=types[float])
    .zeros 167 [1, 1],
    -- 366: x29 += einsum("w,wab->ab", s1, g.aa.bvv)
    .add 167 (.ein [(16, [0]), (3, [0, 1, 2])] [1, 2]) 1 1,
    -- 367: x32 += einsum("ab->ab", x29)
    .add 84 (.ein [(167, [0, 1])] [0, 1]) 1 1,
    -- 368: x116 = np.zeros((nvir[0], nvir[0]), dtype=types[float])
    .zeros 168 [1, 1],
    -- 369: x116 += einsum("ab->ab", x29)
    .add 168 (.ein [(167, [0, 1])] [0, 1]) 1 1,
    -- 370: x280 += einsum("ab->ab", x29)
    .add 85 (.ein [(167, [0, 1])] [0, 1]) 1 1,
    -- 371: x321 += einsum("ab->ab", x29)
    .add 86 (.ein [(167, [0, 1])] [0, 1]) 1 1,
    -- 372: del x29
    .del 167,
    -- 373: x30 = np.zeros((nvir[0], nvir[0]), dtype=types[float])
    .zeros 169 [1, 1],
    -- 374: x30 += einsum("ia,iabc->bc", t1.bb, v.bbaa.ovvv)
    .add 169 (.ein [(17, [0, 1]), (27, [0, 1, 2, 3])] [2, 3]) 1 1,
    -- 375: x32 += einsum("ab->ab", x30)
    .add 84 (.ein [(169, [0, 1])] [0, 1]) 1 1,
    -- 376: x119 = np.zeros((nvir[0], nvir[0]), dtype=types[float])
    .zeros 170 [1, 1],
    -- 377: x119 -= einsum("ab->ba", x30)
    .add 170 (.ein [(169, [0, 1])] [1, 0]) (-1) 1,
    -- 378: x280 += einsum("ab->ab", x30)
    .add 85 (.ein [(169, [0, 1])] [0, 1]) 1 1,
    -- 379: x321 += einsum("ab->ab", x30)
    .add 86 (.ein [(169, [0, 1])] [0, 1]) 1 1,
    -- 380: del x30
    .del 169,
    -- 381: x32 += einsum("ab->ab", f.aa.vv)
    .add 84 (.ein [(28, [0, 1])] [0, 1]) 1 1,
    -- 382: t1new_aa += einsum("ia,ba->ib", t1.aa, x32)
    .add 81 (.ein [(8, [0, 1]), (84, [2, 1])] [0, 2]) 1 1,
    -- 383: del x32
    .del 84,
    -- 384: x33 = np.zeros((nbos), dtype=types[float])
    .zeros 171 [2],
    -- 385: x33 += einsum("ia,wia->w", t1.aa, g.aa.bov)
    .add 171 (.ein [(8, [0, 1]), (2, [2, 0, 1])] [2]) 1 1,
    -- 386: x35 = np.zeros((nbos), dtype=types[float])
    .zeros 172 [2],
    -- 387: x35 += einsum("w->w", x33)
    .add 172 (.ein [(171, [0])] [0]) 1 1,
    -- 388: del x33
    .del 171,
    -- 389: x34 = np.zeros((nbos), dtype=types[float])
    .zeros 173 [2],
    -- 390: x34 += einsum("ia,wia->w", t1.bb, g.bb.bov)
    .add 173 (.ein [(17, [0, 1]), (6, [2, 0, 1])] [2]) 1 1,
    -- 391: x35 += einsum("w->w", x34)
    .add 172 (.ein [(173, [0])] [0]) 1 1,
    -- 392: del x34
    .del 173,
    -- 393: x35 += einsum("w->w", G)
    .add 172 (.ein [(29, [0])] [0]) 1 1,
    -- 394: t1new_aa += einsum("w,wia->ia", x35, u11.aa)
    .add 81 (.ein [(172, [0]), (18, [0, 1, 2])] [1, 2]) 1 1,
    -- 395: t1new_bb += einsum("w,wia->ia", x35, u11.bb)
    .add 116 (.ein [(172, [0]), (22, [0, 1, 2])] [1, 2]) 1 1,
    -- 396: s1new = np.zeros((nbos), dtype=types[float])
    .zeros 174 [2],
    -- 397: s1new += einsum("w,wx->x", x35, s2)
    .add 174 (.ein [(172, [0]), (30, [0, 1])] [1]) 1 1,
    -- 398: del x35
    .del 172,
    -- 399: x36 = np.zeros((nocc[1], nocc[1], nocc[1], nvir[1]), dtype=types[float])
    .zeros 175 [4, 4, 4, 5],
    -- 400: x36 += einsum("ia,jakb->ikjb", t1.bb, v.bbbb.ovov)
    .add 175 (.ein [(17, [0, 1]), (21, [2, 1, 3, 4])] [0, 3, 2, 4]) 1 1,
    -- 401: x37 = np.zeros((nocc[1], nocc[1], nocc[1], nvir[1]), dtype=types[float])
    .zeros 176 [4, 4, 4, 5],
    -- 402: x37 += einsum("ijka->ijka", x36) * -1
    .add 176 (.ein [(175, [0, 1, 2, 3])] [0, 1, 2, 3]) (-1) 1,
    -- 403: x37 += einsum("ijka->ikja", x36)
    .add 176 (.ein [(175, [0, 1, 2, 3])] [0, 2, 1, 3]) 1 1,
    -- 404: x155 = np.zeros((nocc[1], nocc[1], nocc[1], nvir[1]), dtype=types[float])
    .zeros 177 [4, 4, 4, 5],
    -- 405: x155 -= einsum("ijka->ijka", x36)
    .add 177 (.ein [(175, [0, 1, 2, 3])] [0, 1, 2, 3]) (-1) 1,
    -- 406: x155 += einsum("ijka->ikja", x36)
    .add 177 (.ein [(175, [0, 1, 2, 3])] [0, 2, 1, 3]) 1 1,
    -- 407: x181 = np.zeros((nocc[1], nocc[1], nocc[1], nocc[1]), dtype=types[float])
    .zeros 178 [4, 4, 4, 4],
    -- 408: x181 += einsum("ia,jkla->jilk", t1.bb, x36)
    .add 178 (.ein [(17, [0, 1]), (175, [2, 3, 4, 1])] [2, 0, 4, 3]) 1 1,
    -- 409: x182 = np.zeros((nocc[1], nocc[1], nocc[1], nvir[1]), dtype=types[float])
    .zeros 179 [4, 4, 4, 5],
    -- 410: x182 += einsum("ia,jkli->jkla", t1.bb, x181)
    .add 179 (.ein [(17, [0, 1]), (178, [2, 3, 4, 0])] [2, 3, 4, 1]) 1 1,
    -- 411: x183 = np.zeros((nocc[1], nocc[1], nvir[1], nvir[1]), dtype=types[float])
    .zeros 180 [4, 4, 5, 5],
    -- 412: x183 += einsum("ia,jkib->jkab", t1.bb, x182)
    .add 180 (.ein [(17, [0, 1]), (179, [2, 3, 0, 4])] [2, 3, 1, 4]) 1 1,
    -- 413: del x182
    .del 179,
    -- 414: x187 = np.zeros((nocc[1], nocc[1], nvir[1], nvir[1]), dtype=types[float])
    .zeros 181 [4, 4, 5, 5],
    -- 415: x187 += einsum("ijab->ijab", x183)
    .add 181 (.ein [(180, [0, 1, 2, 3])] [0, 1, 2, 3]) 1 1,
    -- 416: del x183
    .del 180,
    -- 417: x223 = np.zeros((nocc[1], nocc[1], nocc[1], nocc[1]), dtype=types[float])
    .zeros 182 [4, 4, 4, 4],
    -- 418: x223 += einsum("ijkl->ijkl", x181)
    .add 182 (.ein [(178, [0, 1, 2, 3])] [0, 1, 2, 3]) 1 1,
    -- 419: del x181
    .del 178,
    -- 420: x264 = np.zeros((nocc[1], nocc[1], nocc[1], nvir[1]), dtype=types[float])
    .zeros 183 [4, 4, 4, 5],
    -- 421: x264 += einsum("ijka->jkia", x36)
    .add 183 (.ein [(175, [0, 1, 2, 3])] [1, 2, 0, 3]) 1 1,
    -- 422: x264 += einsum("ijka->kjia", x36) * -1
    .add 183 (.ein [(175, [0, 1, 2, 3])] [2, 1, 0, 3]) (-1) 1,
    -- 423: del x36
    .del 175,
    -- 424: x37 += einsum("ijka->jika", v.bbbb.ooov)
    .add 176 (.ein [(31, [0, 1, 2, 3])] [1, 0, 2, 3]) 1 1,
    -- 425: x37 += einsum("ijka->jkia", v.bbbb.ooov) * -1
    .add 176 (.ein [(31, [0, 1, 2, 3])] [1, 2, 0, 3]) (-1) 1,
    -- 426: t1new_bb += einsum("ijab,kjia->kb", t2.bbbb, x37) * -1
    .add 116 (.ein [(20, [0, 1, 2, 3]), (176, [4, 1, 0, 2])] [4, 3]) (-1) 1,
    -- 427: del x37
    .del 176,
    -- 428: x38 = np.zeros((nocc[1], nvir[1], nvir[1], nvir[1]), dtype=types[float])
    .zeros 184 [4, 5, 5, 5],
    -- 429: x38 += einsum("iabc->ibac", v.bbbb.ovvv)
    .add 184 (.ein [(32, [0, 1, 2, 3])] [0, 2, 1, 3]) 1 1,
    -- 430: x38 += einsum("iabc->ibca", v.bbbb.ovvv) * -1
    .add 184 (.ein [(32, [0, 1, 2, 3])] [0, 2, 3, 1]) (-1) 1,
    -- 431: x209 = np.zeros((nvir[1], nvir[1]), dtype=types[float])
    .zeros 185 [5, 5],
    -- 432: x209 += einsum("ia,ibac->bc", t1.bb, x38)
    .add 185 (.ein [(17, [0, 1]), (184, [0, 2, 1, 3])] [2, 3]) 1 1,
    -- 433: x210 = np.zeros((nvir[1], nvir[1]), dtype=types[float])
    .zeros 186 [5, 5],
    -- 434: x210 += einsum("ab->ab", x209) * -1
    .add 186 (.ein [(185, [0, 1])] [0, 1]) (-1) 1,
    -- 435: del x209
    .del 185,
    -- 436: t1new_bb += einsum("ijab,icba->jc", t2.bbbb, x38) * -1
    .add 116 (.ein [(20, [0, 1, 2, 3]), (184, [0, 4, 3, 2])] [1, 4]) (-1) 1,
    -- 437: del x38
    .del 184,
    -- 438: x39 = np.zeros((nocc[0], nocc[1], nocc[1], nvir[0]), dtype=types[float])
    .zeros 187 [0, 4, 4, 1],
    -- 439: x39 += einsum("ia,jbka->jikb", t1.bb, v.aabb.ovov)
    .add 187 (.ein [(17, [0, 1]), (13, [2, 3, 4, 1])] [2, 0, 4, 3]) 1 1,
    -- 440: x40 = np.zeros((nocc[0], nocc[1], nocc[1], nvir[0]), dtype=types[float])
    .zeros 188 [0, 4, 4, 1],
    -- 441: x40 += einsum("ijka->ikja", x39)
    .add 188 (.ein [(187, [0, 1, 2, 3])] [0, 2, 1, 3]) 1 1,
    -- 442: x200 = np.zeros((nocc[1], nocc[1], nocc[1], nvir[1]), dtype=types[float])
    .zeros 189 [4, 4, 4, 5],
    -- 443: x200 += einsum("ijab,ikla->kjlb", t2.abab, x39)
    .add 189 (.ein [(14, [0, 1, 2, 3]), (187, [0, 4, 5, 2])] [4, 1, 5, 3]) 1 1,
    -- 444: x205 += einsum("ijka->ikja", x200)
    .add 127 (.ein [(189, [0, 1, 2, 3])] [0, 2, 1, 3]) 1 1,
    -- 445: del x200
    .del 189,
    -- 446: x255 = np.zeros((nocc[0], nocc[1], nocc[1], nvir[0]), dtype=types[float])
    .zeros 190 [0, 4, 4, 1],
    -- 447: x255 += einsum("ijka->ikja", x39)
    .add 190 (.ein [(187, [0, 1, 2, 3])] [0, 2, 1, 3]) 1 1,
    -- 448: del x39
    .del 187,
    -- 449: x40 += einsum("iajk->ijka", v.aabb.ovoo)
    .add 188 (.ein [(33, [0, 1, 2, 3])] [0, 2, 3, 1]) 1 1,
    -- 450: x269 = np.zeros((nocc[0], nocc[0], nocc[1], nocc[1]), dtype=types[float])
    .zeros 191 [0, 0, 4, 4],
    -- 451: x269 += einsum("ia,jkla->ijkl", t1.aa, x40)
    .add 191 (.ein [(8, [0, 1]), (188, [2, 3, 4, 1])] [0, 2, 3, 4]) 1 1,
    -- 452: x270 = np.zeros((nocc[0], nocc[0], nocc[1], nocc[1]), dtype=types[float])
    .zeros 192 [0, 0, 4, 4],
    -- 453: x270 += einsum("ijkl->jikl", x269)
    .add 192 (.ein [(191, [0, 1, 2, 3])] [1, 0, 2, 3]) 1 1,
    -- 454: del x269
    .del 191,
    -- 455: x287 = np.zeros((nocc[0], nocc[0], nocc[1], nvir[1]), dtype=types[float])
    .zeros 193 [0, 0, 4, 5],
    -- 456: x287 += einsum("ijab,kjla->iklb", t2.abab, x40)
    .add 193 (.ein [(14, [0, 1, 2, 3]), (188, [4, 1, 5, 2])] [0, 4, 5, 3]) 1 1,
    -- 457: x291 += einsum("ijka->jika", x287) * -1
    .add 115 (.ein [(193, [0, 1, 2, 3])] [1, 0, 2, 3]) (-1) 1,
    -- 458: del x287
    .del 193,
    -- 459: t1new_bb += einsum("ijab,ijka->kb", t2.abab, x40) * -1
    .add 116 (.ein [(14, [0, 1, 2, 3]), (188, [0, 1, 4, 2])] [4, 3]) (-1) 1,
    -- 460: x41 = np.zeros((nocc[1], nocc[1], nvir[1], nvir[1]), dtype=types[float])
    .zeros 194 [4, 4, 5, 5],
    -- 461: x41 += einsum("ijab->jiab", t2.bbbb) * -1
    .add 194 (.ein [(20, [0, 1, 2, 3])] [1, 0, 2, 3]) (-1) 1,
    -- 462: x41 += einsum("ijab->jiba", t2.bbbb)
    .add 194 (.ein [(20, [0, 1, 2, 3])] [1, 0, 3, 2]) 1 1,
    -- 463: x194 = np.zeros((nocc[0], nocc[1], nvir[0], nvir[1]), dtype=types[float])
    .zeros 195 [0, 4, 1, 5],
    -- 464: x194 += einsum("iajb,jkcb->ikac", v.aabb.ovov, x41)
    .add 195 (.ein [(13, [0, 1, 2, 3]), (194, [2, 4, 5, 3])] [0, 4, 1, 5]) 1 1,
    -- 465: x195 = np.zeros((nocc[1], nocc[1], nvir[1], nvir[1]), dtype=types[float])
    .zeros 196 [4, 4, 5, 5],
    -- 466: x195 += einsum("ijab,ikac->jkbc", t2.abab, x194) * -1
    .add 196 (.ein [(14, [0, 1, 2, 3]), (195, [0, 4, 2, 5])] [1, 4, 3, 5]) (-1) 1,
    -- 467: del x194
    .del 195,
    -- 468: x219 = np.zeros((nocc[1], nocc[1], nvir[1], nvir[1]), dtype=types[float])
    .zeros 197 [4, 4, 5, 5],
    -- 469: x219 += einsum("ijab->ijab", x195) * -1
    .add 197 (.ein [(196, [0, 1, 2, 3])] [0, 1, 2, 3]) (-1) 1,
    -- 470: del x195
    .del 196,
    -- 471: x286 = np.zeros((nocc[0], nocc[0], nocc[1], nvir[1]), dtype=types[float])
    .zeros 198 [0, 0, 4, 5],
    -- 472: x286 += einsum("ijka,klba->ijlb", x4, x41)
    .add 198 (.ein [(89, [0, 1, 2, 3]), (194, [2, 4, 5, 3])] [0, 1, 4, 5]) 1 1,
    -- 473: del x4
    .del 89,
    -- 474: x291 += einsum("ijka->ijka", x286) * -1
    .add 115 (.ein [(198, [0, 1, 2, 3])] [0, 1, 2, 3]) (-1) 1,
    -- 475: del x286
    .del 198,
    -- 476: t1new_bb += einsum("ia,ijba->jb", x15, x41) * -1
    .add 116 (.ein [(121, [0, 1]), (194, [0, 2, 3, 1])] [2, 3]) (-1) 1,
    -- 477: del x15
    .del 121,
    -- 478: x42 = np.zeros((nocc[1], nocc[1], nvir[1], nvir[1]), dtype=types[float])
    .zeros 199 [4, 4, 5, 5],
    -- 479: x42 += einsum("iabj->ijba", v.bbbb.ovvo)
    .add 199 (.ein [(34, [0, 1, 2, 3])] [0, 3, 2, 1]) 1 1,
    -- 480: x42 -= einsum("ijab->ijab", v.bbbb.oovv)
    .add 199 (.ein [(35, [0, 1, 2, 3])] [0, 1, 2, 3]) (-1) 1,
    -- 481: x161 = np.zeros((nocc[1], nocc[1], nocc[1], nvir[1]), dtype=types[float])
    .zeros 200 [4, 4, 4, 5],
    -- 482: x161 += einsum("ia,jkba->ijkb", t1.bb, x42)
    .add 200 (.ein [(17, [0, 1]), (199, [2, 3, 4, 1])] [0, 2, 3, 4]) 1 1,
    -- 483: x162 = np.zeros((nocc[1], nocc[1], nocc[1], nvir[1]), dtype=types[float])
    .zeros 201 [4, 4, 4, 5],
    -- 484: x162 -= einsum("ijka->jika", x161)
    .add 201 (.ein [(200, [0, 1, 2, 3])] [1, 0, 2, 3]) (-1) 1,
    -- 485: del x161
    .del 200,
    -- 486: t1new_bb += einsum("ia,ijba->jb", t1.bb, x42)
    .add 116 (.ein [(17, [0, 1]), (199, [0, 2, 3, 1])] [2, 3]) 1 1,
    -- 487: u11new_bb = np.zeros((nbos, nocc[1], nvir[1]), dtype=types[float])
    .zeros 202 [2, 4, 5],
    -- 488: u11new_bb += einsum("wia,ijba->wjb", u11.bb, x42)
    .add 202 (.ein [(22, [0, 1, 2]), (199, [1, 3, 4, 2])] [0, 3, 4]) 1 1,
    -- 489: x43 = np.zeros((nbos, nocc[1], nocc[1]), dtype=types[float])
    .zeros 203 [2, 4, 4],
    -- 490: x43 += einsum("ia,wja->wji", t1.bb, g.bb.bov)
    .add 203 (.ein [(17, [0, 1]), (6, [2, 3, 1])] [2, 3, 0]) 1 1,
    -- 491: x44 = np.zeros((nbos, nocc[1], nocc[1]), dtype=types[float])
    .zeros 204 [2, 4, 4],
    -- 492: x44 += einsum("wij->wij", x43)
    .add 204 (.ein [(203, [0, 1, 2])] [0, 1, 2]) 1 1,
    -- 493: del x43
    .del 203,
    -- 494: x44 += einsum("wij->wij", g.bb.boo)
    .add 204 (.ein [(4, [0, 1, 2])] [0, 1, 2]) 1 1,
    -- 495: x170 = np.zeros((nbos, nocc[1], nvir[1]), dtype=types[float])
    .zeros 205 [2, 4, 5],
    -- 496: x170 += einsum("ia,wij->wja", t1.bb, x44)
    .add 205 (.ein [(17, [0, 1]), (204, [2, 0, 3])] [2, 3, 1]) 1 1,
    -- 497: x171 = np.zeros((nbos, nocc[1], nvir[1]), dtype=types[float])
    .zeros 206 [2, 4, 5],
    -- 498: x171 -= einsum("wia->wia", x170)
    .add 206 (.ein [(205, [0, 1, 2])] [0, 1, 2]) (-1) 1,
    -- 499: del x170
    .del 205,
    -- 500: t1new_bb -= einsum("wia,wij->ja", u11.bb, x44)
    .add 116 (.ein [(22, [0, 1, 2]), (204, [0, 1, 3])] [3, 2]) (-1) 1,
    -- 501: del x44
    .del 204,
    -- 502: x45 = np.zeros((nocc[1], nocc[1]), dtype=types[float])
    .zeros 207 [4, 4],
    -- 503: x45 += einsum("w,wij->ij", s1, g.bb.boo)
    .add 207 (.ein [(16, [0]), (4, [0, 1, 2])] [1, 2]) 1 1,
    -- 504: x53 += einsum("ij->ij", x45)
    .add 135 (.ein [(207, [0, 1])] [0, 1]) 1 1,
    -- 505: x165 = np.zeros((nocc[1], nocc[1]), dtype=types[float])
    .zeros 208 [4, 4],
    -- 506: x165 += einsum("ij->ji", x45)
    .add 208 (.ein [(207, [0, 1])] [1, 0]) 1 1,
    -- 507: del x45
    .del 207,
    -- 508: x46 = np.zeros((nocc[1], nocc[1]), dtype=types[float])
    .zeros 209 [4, 4],
    -- 509: x46 += einsum("wia,wja->ij", g.bb.bov, u11.bb)
    .add 209 (.ein [(6, [0, 1, 2]), (22, [0, 3, 2])] [1, 3]) 1 1,
    -- 510: x53 += einsum("ij->ij", x46)
    .add 135 (.ein [(209, [0, 1])] [0, 1]) 1 1,
    -- 511: x178 = np.zeros((nocc[1], nocc[1]), dtype=types[float])
    .zeros 210 [4, 4],
    -- 512: x178 += einsum("ij->ij", x46)
    .add 210 (.ein [(209, [0, 1])] [0, 1]) 1 1,
    -- 513: del x46
    .del 209,
    -- 514: x47 = np.zeros((nocc[1], nocc[1]), dtype=types[float])
    .zeros 211 [4, 4],
    -- 515: x47 += einsum("ia,iajk->jk", t1.aa, v.aabb.ovoo)
    .add 211 (.ein [(8, [0, 1]), (33, [0, 1, 2, 3])] [2, 3]) 1 1,
    -- 516: x53 += einsum("ij->ij", x47)
    .add 135 (.ein [(211, [0, 1])] [0, 1]) 1 1,
    -- 517: x178 += einsum("ij->ij", x47)
    .add 210 (.ein [(211, [0, 1])] [0, 1]) 1 1,
    -- 518: del x47
    .del 211,
    -- 519: x179 = np.zeros((nocc[1], nocc[1], nvir[1], nvir[1]), dtype=types[float])
    .zeros 212 [4, 4, 5, 5],
    -- 520: x179 += einsum("ij,ikab->kjab", x178, t2.bbbb)
    .add 212 (.ein [(210, [0, 1]), (20, [0, 2, 3, 4])] [2, 1, 3, 4]) 1 1,
    -- 521: del x178
    .del 210,
    -- 522: x180 = np.zeros((nocc[1], nocc[1], nvir[1], nvir[1]), dtype=types[float])
    .zeros 213 [4, 4, 5, 5],
    -- 523: x180 -= einsum("ijab->ijba", x179)
    .add 213 (.ein [(212, [0, 1, 2, 3])] [0, 1, 3, 2]) (-1) 1,
    -- 524: del x179
    .del 212,
    -- 525: x48 = np.zeros((nocc[1], nocc[1]), dtype=types[float])
    .zeros 214 [4, 4],
    -- 526: x48 += einsum("ijab,iakb->jk", t2.abab, v.aabb.ovov)
    .add 214 (.ein [(14, [0, 1, 2, 3]), (13, [0, 2, 4, 3])] [1, 4]) 1 1,
    -- 527: x53 += einsum("ij->ji", x48)
    .add 135 (.ein [(214, [0, 1])] [1, 0]) 1 1,
    -- 528: x217 += einsum("ij->ij", x48)
    .add 129 (.ein [(214, [0, 1])] [0, 1]) 1 1,
    -- 529: del x48
    .del 214,
    -- 530: x218 = np.zeros((nocc[1], nocc[1], nvir[1], nvir[1]), dtype=types[float])
    .zeros 215 [4, 4, 5, 5],
    -- 531: x218 += einsum("ij,jkab->ikab", x217, t2.bbbb)
    .add 215 (.ein [(129, [0, 1]), (20, [1, 2, 3, 4])] [0, 2, 3, 4]) 1 1,
    -- 532: del x217
    .del 129,
    -- 533: x219 += einsum("ijab->ijba", x218) * -1
    .add 197 (.ein [(215, [0, 1, 2, 3])] [0, 1, 3, 2]) (-1) 1,
    -- 534: del x218
    .del 215,
    -- 535: x50 = np.zeros((nocc[1], nocc[1], nocc[1], nvir[1]), dtype=types[float])
    .zeros 216 [4, 4, 4, 5],
    -- 536: x50 += einsum("ijka->ikja", v.bbbb.ooov) * -1
    .add 216 (.ein [(31, [0, 1, 2, 3])] [0, 2, 1, 3]) (-1) 1,
    -- 537: x50 += einsum("ijka->kija", v.bbbb.ooov)
    .add 216 (.ein [(31, [0, 1, 2, 3])] [2, 0, 1, 3]) 1 1,
    -- 538: x51 = np.zeros((nocc[1], nocc[1]), dtype=types[float])
    .zeros 217 [4, 4],
    -- 539: x51 += einsum("ia,jika->jk", t1.bb, x50)
    .add 217 (.ein [(17, [0, 1]), (216, [2, 0, 3, 1])] [2, 3]) 1 1,
    -- 540: x53 += einsum("ij->ij", x51) * -1
    .add 135 (.ein [(217, [0, 1])] [0, 1]) (-1) 1,
    -- 541: del x51
    .del 217,
    -- 542: x329 = np.zeros((nbos, nocc[1], nocc[1]), dtype=types[float])
    .zeros 218 [2, 4, 4],
    -- 543: x329 += einsum("wia,jika->wjk", u11.bb, x50) * -1
    .add 218 (.ein [(22, [0, 1, 2]), (216, [3, 1, 4, 2])] [0, 3, 4]) (-1) 1,
    -- 544: del x50
    .del 216,
    -- 545: x53 += einsum("ij->ij", f.bb.oo)
    .add 135 (.ein [(36, [0, 1])] [0, 1]) 1 1,
    -- 546: x293 = np.zeros((nocc[0], nocc[1], nvir[0], nvir[1]), dtype=types[float])
    .zeros 219 [0, 4, 1, 5],
    -- 547: x293 += einsum("ij,kiab->kjab", x53, t2.abab)
    .add 219 (.ein [(135, [0, 1]), (14, [2, 0, 3, 4])] [2, 1, 3, 4]) 1 1,
    -- 548: t2new_baba += einsum("ijab->jiba", x293) * -1
    .add 165 (.ein [(219, [0, 1, 2, 3])] [1, 0, 3, 2]) (-1) 1,
    -- 549: t2new_abab += einsum("ijab->ijab", x293) * -1
    .add 166 (.ein [(219, [0, 1, 2, 3])] [0, 1, 2, 3]) (-1) 1,
    -- 550: del x293
    .del 219,
    -- 551: t1new_bb += einsum("ia,ij->ja", t1.bb, x53) * -1
    .add 116 (.ein [(17, [0, 1]), (135, [0, 2])] [2, 1]) (-1) 1,
    -- 552: u11new_bb += einsum("ij,wia->wja", x53, u11.bb) * -1
    .add 202 (.ein [(135, [0, 1]), (22, [2, 0, 3])] [2, 1, 3]) (-1) 1,
    -- 553: del x53
    .del 135,
    -- 554: x54 = np.zeros((nvir[1], nvir[1]), dtype=types[float])
    .zeros 220 [5, 5],
    -- 555: x54 += einsum("w,wab->ab", s1, g.bb.bvv)
    .add 220 (.ein [(16, [0]), (7, [0, 1, 2])] [1, 2]) 1 1,
    -- 556: x58 = np.zeros((nvir[1], nvir[1]), dtype=types[float])
    .zeros 221 [5, 5],
    -- 557: x58 += einsum("ab->ab", x54)
    .add 221 (.ein [(220, [0, 1])] [0, 1]) 1 1,
    -- 558: x173 = np.zeros((nvir[1], nvir[1]), dtype=types[float])
    .zeros 222 [5, 5],
    -- 559: x173 += einsum("ab->ab", x54)
    .add 222 (.ein [(220, [0, 1])] [0, 1]) 1 1,
    -- 560: x277 = np.zeros((nvir[1], nvir[1]), dtype=types[float])
    .zeros 223 [5, 5],
    -- 561: x277 += einsum("ab->ab", x54)
    .add 223 (.ein [(220, [0, 1])] [0, 1]) 1 1,
    -- 562: x327 += einsum("ab->ab", x54)
    .add 133 (.ein [(220, [0, 1])] [0, 1]) 1 1,
    -- 563: del x54
    .del 220,
    -- 564: x55 = np.zeros((nvir[1], nvir[1]), dtype=types[float])
    .zeros 224 [5, 5],
    -- 565: x55 += einsum("ia,iabc->bc", t1.aa, v.aabb.ovvv)
    .add 224 (.ein [(8, [0, 1]), (37, [0, 1, 2, 3])] [2, 3]) 1 1,
    -- 566: x58 += einsum("ab->ab", x55)
    .add 221 (.ein [(224, [0, 1])] [0, 1]) 1 1,
    -- 567: x176 = np.zeros((nvir[1], nvir[1]), dtype=types[float])
    .zeros 225 [5, 5],
    -- 568: x176 -= einsum("ab->ba", x55)
    .add 225 (.ein [(224, [0, 1])] [1, 0]) (-1) 1,
    -- 569: x277 += einsum("ab->ab", x55)
    .add 223 (.ein [(224, [0, 1])] [0, 1]) 1 1,
    -- 570: x327 += einsum("ab->ab", x55)
    .add 133 (.ein [(224, [0, 1])] [0, 1]) 1 1,
    -- 571: del x55
    .del 224,
    -- 572: x56 = np.zeros((nocc[1], nvir[1], nvir[1], nvir[1]), dtype=types[float])
    .zeros 226 [4, 5, 5, 5],
    -- 573: x56 += einsum("iabc->ibac", v.bbbb.ovvv) * -1
    .add 226 (.ein [(32, [0, 1, 2, 3])] [0, 2, 1, 3]) (-1) 1,
    -- 574: x56 += einsum("iabc->ibca", v.bbbb.ovvv)
    .add 226 (.ein [(32, [0, 1, 2, 3])] [0, 2, 3, 1]) 1 1,
    -- 575: x57 = np.zeros((nvir[1], nvir[1]), dtype=types[float])
    .zeros 227 [5, 5],
    -- 576: x57 += einsum("ia,ibac->bc", t1.bb, x56)
    .add 227 (.ein [(17, [0, 1]), (226, [0, 2, 1, 3])] [2, 3]) 1 1,
    -- 577: x58 += einsum("ab->ab", x57) * -1
    .add 221 (.ein [(227, [0, 1])] [0, 1]) (-1) 1,
    -- 578: x277 += einsum("ab->ab", x57) * -1
    .add 223 (.ein [(227, [0, 1])] [0, 1]) (-1) 1,
    -- 579: x327 += einsum("ab->ab", x57) * -1
    .add 133 (.ein [(227, [0, 1])] [0, 1]) (-1) 1,
    -- 580: del x57
    .del 227,
    -- 581: x192 = np.zeros((nocc[1], nocc[1], nvir[1], nvir[1]), dtype=types[float])
    .zeros 228 [4, 4, 5, 5],
    -- 582: x192 += einsum("ia,jbca->ijbc", t1.bb, x56)
    .add 228 (.ein [(17, [0, 1]), (226, [2, 3, 4, 1])] [0, 2, 3, 4]) 1 1,
    -- 583: del x56
    .del 226,
    -- 584: x193 = np.zeros((nocc[1], nocc[1], nvir[1], nvir[1]), dtype=types[float])
    .zeros 229 [4, 4, 5, 5],
    -- 585: x193 += einsum("ijab,jkcb->kica", x192, x41) * -1
    .add 229 (.ein [(228, [0, 1, 2, 3]), (194, [1, 4, 5, 3])] [4, 0, 5, 2]) (-1) 1,
    -- 586: del x192
    .del 228,
    -- 587: x219 += einsum("ijab->jiab", x193) * -1
    .add 197 (.ein [(229, [0, 1, 2, 3])] [1, 0, 2, 3]) (-1) 1,
    -- 588: del x193
    .del 229,
    -- 589: x58 += einsum("ab->ab", f.bb.vv)
    .add 221 (.ein [(38, [0, 1])] [0, 1]) 1 1,
    -- 590: t1new_bb += einsum("ia,ba->ib", t1.bb, x58)
    .add 116 (.ein [(17, [0, 1]), (221, [2, 1])] [0, 2]) 1 1,
    -- 591: del x58
    .del 221,
    -- 592: x59 = np.zeros((nocc[0], nocc[0], nocc[0], nocc[0]), dtype=types[float])
    .zeros 230 [0, 0, 0, 0],
    -- 593: x59 += einsum("ia,jkla->ijlk", t1.aa, v.aaaa.ooov)
    .add 230 (.ein [(8, [0, 1]), (11, [2, 3, 4, 1])] [0, 2, 4, 3]) 1 1,
    -- 594: x60 = np.zeros((nocc[0], nocc[0], nvir[0], nvir[0]), dtype=types[float])
    .zeros 231 [0, 0, 1, 1],
    -- 595: x60 += einsum("ijab,kijl->klab", t2.aaaa, x59)
    .add 231 (.ein [(10, [0, 1, 2, 3]), (230, [4, 0, 1, 5])] [4, 5, 2, 3]) 1 1,
    -- 596: x87 += einsum("ijab->ijab", x60)
    .add 102 (.ein [(231, [0, 1, 2, 3])] [0, 1, 2, 3]) 1 1,
    -- 597: del x60
    .del 231,
    -- 598: x75 = np.zeros((nocc[0], nocc[0], nocc[0], nvir[0]), dtype=types[float])
    .zeros 232 [0, 0, 0, 1],
    -- 599: x75 += einsum("ia,jkil->jkla", t1.aa, x59)
    .add 232 (.ein [(8, [0, 1]), (230, [2, 3, 0, 4])] [2, 3, 4, 1]) 1 1,
    -- 600: del x59
    .del 230,
    -- 601: x83 += einsum("ijka->ijka", x75)
    .add 91 (.ein [(232, [0, 1, 2, 3])] [0, 1, 2, 3]) 1 1,
    -- 602: del x75
    .del 232,
    -- 603: x63 = np.zeros((nocc[0], nocc[0], nvir[0], nvir[0]), dtype=types[float])
    .zeros 233 [0, 0, 1, 1],
    -- 604: x63 += einsum("ijab->jiab", t2.aaaa)
    .add 233 (.ein [(10, [0, 1, 2, 3])] [1, 0, 2, 3]) 1 1,
    -- 605: x63 += einsum("ijab->jiba", t2.aaaa) * -1
    .add 233 (.ein [(10, [0, 1, 2, 3])] [1, 0, 3, 2]) (-1) 1,
    -- 606: x65 = np.zeros((nocc[0], nocc[0], nvir[0], nvir[0]), dtype=types[float])
    .zeros 234 [0, 0, 1, 1],
    -- 607: x65 += einsum("ijab,kica->jkbc", x63, x64) * -1
    .add 234 (.ein [(233, [0, 1, 2, 3]), (87, [4, 0, 5, 2])] [1, 4, 3, 5]) (-1) 1,
    -- 608: del x64
    .del 87,
    -- 609: x87 += einsum("ijab->jiab", x65) * -1
    .add 102 (.ein [(234, [0, 1, 2, 3])] [1, 0, 2, 3]) (-1) 1,
    -- 610: del x65
    .del 234,
    -- 611: x236 = np.zeros((nocc[0], nocc[1], nvir[0], nvir[1]), dtype=types[float])
    .zeros 235 [0, 4, 1, 5],
    -- 612: x236 += einsum("iajb,ikac->kjcb", v.aabb.ovov, x63)
    .add 235 (.ein [(13, [0, 1, 2, 3]), (233, [0, 4, 1, 5])] [4, 2, 5, 3]) 1 1,
    -- 613: x238 += einsum("ijab->ijab", x236) * -1
    .add 137 (.ein [(235, [0, 1, 2, 3])] [0, 1, 2, 3]) (-1) 1,
    -- 614: del x236
    .del 235,
    -- 615: x239 = np.zeros((nocc[0], nocc[0], nvir[0], nvir[0]), dtype=types[float])
    .zeros 236 [0, 0, 1, 1],
    -- 616: x239 += einsum("ijab,ikac->kjcb", x63, x7)
    .add 236 (.ein [(233, [0, 1, 2, 3]), (105, [0, 4, 2, 5])] [4, 1, 5, 3]) 1 1,
    -- 617: del x7
    .del 105,
    -- 618: x241 = np.zeros((nocc[0], nocc[0], nvir[0], nvir[0]), dtype=types[float])
    .zeros 237 [0, 0, 1, 1],
    -- 619: x241 += einsum("ijab->ijba", x239)
    .add 237 (.ein [(236, [0, 1, 2, 3])] [0, 1, 3, 2]) 1 1,
    -- 620: del x239
    .del 236,
    -- 621: x266 = np.zeros((nocc[0], nocc[1], nocc[1], nvir[0]), dtype=types[float])
    .zeros 238 [0, 4, 4, 1],
    -- 622: x266 += einsum("ijka,ilab->ljkb", x40, x63)
    .add 238 (.ein [(188, [0, 1, 2, 3]), (233, [0, 4, 3, 5])] [4, 1, 2, 5]) 1 1,
    -- 623: del x40
    .del 188,
    -- 624: del x63
    .del 233,
    -- 625: x274 += einsum("ijka->ijka", x266) * -1
    .add 93 (.ein [(238, [0, 1, 2, 3])] [0, 1, 2, 3]) (-1) 1,
    -- 626: del x266
    .del 238,
    -- 627: x66 = np.zeros((nocc[0], nocc[0], nvir[0], nvir[0]), dtype=types[float])
    .zeros 239 [0, 0, 1, 1],
    -- 628: x66 += einsum("ijab,kcjb->ikac", t2.abab, v.aabb.ovov)
    .add 239 (.ein [(14, [0, 1, 2, 3]), (13, [4, 5, 1, 3])] [0, 4, 2, 5]) 1 1,
    -- 629: x241 += einsum("ijab->jiab", x66)
    .add 237 (.ein [(239, [0, 1, 2, 3])] [1, 0, 2, 3]) 1 1,
    -- 630: x67 = np.zeros((nocc[0], nocc[0], nvir[0], nvir[0]), dtype=types[float])
    .zeros 240 [0, 0, 1, 1],
    -- 631: x67 += einsum("ijab->jiab", t2.aaaa) * -1
    .add 240 (.ein [(10, [0, 1, 2, 3])] [1, 0, 2, 3]) (-1) 1,
    -- 632: x67 += einsum("ijab->jiba", t2.aaaa)
    .add 240 (.ein [(10, [0, 1, 2, 3])] [1, 0, 3, 2]) 1 1,
    -- 633: x68 = np.zeros((nocc[0], nocc[0], nvir[0], nvir[0]), dtype=types[float])
    .zeros 241 [0, 0, 1, 1],
    -- 634: x68 += einsum("ijab,jkbc->ikac", x66, x67)
    .add 241 (.ein [(239, [0, 1, 2, 3]), (240, [1, 4, 3, 5])] [0, 4, 2, 5]) 1 1,
    -- 635: del x66
    .del 239,
    -- 636: x87 += einsum("ijab->jiba", x68) * -1
    .add 102 (.ein [(241, [0, 1, 2, 3])] [1, 0, 3, 2]) (-1) 1,
    -- 637: del x68
    .del 241,
    -- 638: x69 = np.zeros((nvir[0], nvir[0]), dtype=types[float])
    .zeros 242 [1, 1],
    -- 639: x69 += einsum("ijab,icjb->ac", t2.abab, v.aabb.ovov)
    .add 242 (.ein [(14, [0, 1, 2, 3]), (13, [0, 4, 1, 3])] [2, 4]) 1 1,
    -- 640: x73 += einsum("ab->ab", x69)
    .add 108 (.ein [(242, [0, 1])] [0, 1]) 1 1,
    -- 641: x280 += einsum("ab->ab", x69) * -1
    .add 85 (.ein [(242, [0, 1])] [0, 1]) (-1) 1,
    -- 642: x321 += einsum("ab->ab", x69) * -1
    .add 86 (.ein [(242, [0, 1])] [0, 1]) (-1) 1,
    -- 643: del x69
    .del 242,
    -- 644: x71 = np.zeros((nocc[0], nvir[0], nvir[0], nvir[0]), dtype=types[float])
    .zeros 243 [0, 1, 1, 1],
    -- 645: x71 += einsum("iabc->ibac", v.aaaa.ovvv) * -1
    .add 243 (.ein [(12, [0, 1, 2, 3])] [0, 2, 1, 3]) (-1) 1,
    -- 646: x71 += einsum("iabc->ibca", v.aaaa.ovvv)
    .add 243 (.ein [(12, [0, 1, 2, 3])] [0, 2, 3, 1]) 1 1,
    -- 647: x72 = np.zeros((nvir[0], nvir[0]), dtype=types[float])
    .zeros 244 [1, 1],
    -- 648: x72 += einsum("ia,ibca->bc", t1.aa, x71)
    .add 244 (.ein [(8, [0, 1]), (243, [0, 2, 3, 1])] [2, 3]) 1 1,
    -- 649: x73 += einsum("ab->ab", x72) * -1
    .add 108 (.ein [(244, [0, 1])] [0, 1]) (-1) 1,
    -- 650: del x72
    .del 244,
    -- 651: x74 = np.zeros((nocc[0], nocc[0], nvir[0], nvir[0]), dtype=types[float])
    .zeros 245 [0, 0, 1, 1],
    -- 652: x74 += einsum("ab,ijbc->ijca", x73, t2.aaaa)
    .add 245 (.ein [(108, [0, 1]), (10, [2, 3, 1, 4])] [2, 3, 4, 0]) 1 1,
    -- 653: del x73
    .del 108,
    -- 654: x87 += einsum("ijab->jiab", x74)
    .add 102 (.ein [(245, [0, 1, 2, 3])] [1, 0, 2, 3]) 1 1,
    -- 655: del x74
    .del 245,
    -- 656: x240 = np.zeros((nocc[0], nocc[0], nvir[0], nvir[0]), dtype=types[float])
    .zeros 246 [0, 0, 1, 1],
    -- 657: x240 += einsum("ia,jbca->ijbc", t1.aa, x71)
    .add 246 (.ein [(8, [0, 1]), (243, [2, 3, 4, 1])] [0, 2, 3, 4]) 1 1,
    -- 658: del x71
    .del 243,
    -- 659: x241 += einsum("ijab->jiab", x240) * -1
    .add 237 (.ein [(246, [0, 1, 2, 3])] [1, 0, 2, 3]) (-1) 1,
    -- 660: del x240
    .del 246,
    -- 661: x76 = np.zeros((nocc[0], nocc[0], nocc[0], nvir[0]), dtype=types[float])
    .zeros 247 [0, 0, 0, 1],
    -- 662: x76 += einsum("ijab,kacb->ijkc", t2.aaaa, v.aaaa.ovvv)
    .add 247 (.ein [(10, [0, 1, 2, 3]), (12, [4, 2, 5, 3])] [0, 1, 4, 5]) 1 1,
    -- 663: x83 += einsum("ijka->ikja", x76)
    .add 91 (.ein [(247, [0, 1, 2, 3])] [0, 2, 1, 3]) 1 1,
    -- 664: del x76
    .del 247,
    -- 665: x77 = np.zeros((nocc[0], nocc[0], nvir[0], nvir[0]), dtype=types[float])
    .zeros 248 [0, 0, 1, 1],
    -- 666: x77 += einsum("ia,jbca->ijcb", t1.aa, v.aaaa.ovvv)
    .add 248 (.ein [(8, [0, 1]), (12, [2, 3, 4, 1])] [0, 2, 4, 3]) 1 1,
    -- 667: x78 = np.zeros((nocc[0], nocc[0], nocc[0], nvir[0]), dtype=types[float])
    .zeros 249 [0, 0, 0, 1],
    -- 668: x78 += einsum("ia,jkba->ijkb", t1.aa, x77)
    .add 249 (.ein [(8, [0, 1]), (248, [2, 3, 4, 1])] [0, 2, 3, 4]) 1 1,
    -- 669: del x77
    .del 248,
    -- 670: x83 += einsum("ijka->ikja", x78)
    .add 91 (.ein [(249, [0, 1, 2, 3])] [0, 2, 1, 3]) 1 1,
    -- 671: del x78
    .del 249,
    -- 672: x81 = np.zeros((nocc[0], nocc[0], nocc[0], nvir[0]), dtype=types[float])
    .zeros 250 [0, 0, 0, 1],
    -- 673: x81 += einsum("ijka->ikja", v.aaaa.ooov) * -1
    .add 250 (.ein [(11, [0, 1, 2, 3])] [0, 2, 1, 3]) (-1) 1,
    -- 674: x81 += einsum("ijka->kija", v.aaaa.ooov)
    .add 250 (.ein [(11, [0, 1, 2, 3])] [2, 0, 1, 3]) 1 1,
    -- 675: x82 = np.zeros((nocc[0], nocc[0], nocc[0], nvir[0]), dtype=types[float])
    .zeros 251 [0, 0, 0, 1],
    -- 676: x82 += einsum("ijab,iklb->jkla", x67, x81)
    .add 251 (.ein [(240, [0, 1, 2, 3]), (250, [0, 4, 5, 3])] [1, 4, 5, 2]) 1 1,
    -- 677: del x81
    .del 250,
    -- 678: del x67
    .del 240,
    -- 679: x83 += einsum("ijka->ijka", x82)
    .add 91 (.ein [(251, [0, 1, 2, 3])] [0, 1, 2, 3]) 1 1,
    -- 680: del x82
    .del 251,
    -- 681: x84 = np.zeros((nocc[0], nocc[0], nvir[0], nvir[0]), dtype=types[float])
    .zeros 252 [0, 0, 1, 1],
    -- 682: x84 += einsum("ia,jikb->jkab", t1.aa, x83)
    .add 252 (.ein [(8, [0, 1]), (91, [2, 0, 3, 4])] [2, 3, 1, 4]) 1 1,
    -- 683: del x83
    .del 91,
    -- 684: x87 += einsum("ijab->ijab", x84)
    .add 102 (.ein [(252, [0, 1, 2, 3])] [0, 1, 2, 3]) 1 1,
    -- 685: del x84
    .del 252,
    -- 686: t2new_aaaa = np.zeros((nocc[0], nocc[0], nvir[0], nvir[0]), dtype=types[float])
    .zeros 253 [0, 0, 1, 1],
    -- 687: t2new_aaaa += einsum("ijab->ijab", x87) * -1
    .add 253 (.ein [(102, [0, 1, 2, 3])] [0, 1, 2, 3]) (-1) 1,
    -- 688: t2new_aaaa += einsum("ijab->ijba", x87)
    .add 253 (.ein [(102, [0, 1, 2, 3])] [0, 1, 3, 2]) 1 1,
    -- 689: t2new_aaaa += einsum("ijab->jiab", x87)
    .add 253 (.ein [(102, [0, 1, 2, 3])] [1, 0, 2, 3]) 1 1,
    -- 690: t2new_aaaa += einsum("ijab->jiba", x87) * -1
    .add 253 (.ein [(102, [0, 1, 2, 3])] [1, 0, 3, 2]) (-1) 1,
    -- 691: del x87
    .del 102,
    -- 692: x88 = np.zeros((nocc[0], nocc[0], nvir[0], nvir[0]), dtype=types[float])
    .zeros 254 [0, 0, 1, 1],
    -- 693: x88 += einsum("ia,bjca->ijbc", t1.aa, v.aaaa.vovv)
    .add 254 (.ein [(8, [0, 1]), (39, [2, 3, 4, 1])] [0, 3, 2, 4]) 1 1,
    -- 694: x123 -= einsum("ijab->ijab", x88)
    .add 155 (.ein [(254, [0, 1, 2, 3])] [0, 1, 2, 3]) (-1) 1,
    -- 695: del x88
    .del 254,
    -- 696: x89 = np.zeros((nocc[0], nocc[0], nvir[0], nvir[0]), dtype=types[float])
    .zeros 255 [0, 0, 1, 1],
    -- 697: x89 += einsum("ijab,jbck->ikac", t2.abab, v.bbaa.ovvo)
    .add 255 (.ein [(14, [0, 1, 2, 3]), (40, [1, 3, 4, 5])] [0, 5, 2, 4]) 1 1,
    -- 698: x123 += einsum("ijab->ijab", x89)
    .add 155 (.ein [(255, [0, 1, 2, 3])] [0, 1, 2, 3]) 1 1,
    -- 699: del x89
    .del 255,
    -- 700: x90 = np.zeros((nocc[0], nocc[1], nvir[0], nvir[1]), dtype=types[float])
    .zeros 256 [0, 4, 1, 5],
    -- 701: x90 += einsum("ia,jbca->ijcb", t1.aa, v.bbaa.ovvv)
    .add 256 (.ein [(8, [0, 1]), (27, [2, 3, 4, 1])] [0, 2, 4, 3]) 1 1,
    -- 702: x91 = np.zeros((nocc[0], nocc[0], nvir[0], nvir[0]), dtype=types[float])
    .zeros 257 [0, 0, 1, 1],
    -- 703: x91 += einsum("ijab,kjcb->kiac", t2.abab, x90)
    .add 257 (.ein [(14, [0, 1, 2, 3]), (256, [4, 1, 5, 3])] [4, 0, 2, 5]) 1 1,
    -- 704: x123 -= einsum("ijab->ijab", x91)
    .add 155 (.ein [(257, [0, 1, 2, 3])] [0, 1, 2, 3]) (-1) 1,
    -- 705: del x91
    .del 257,
    -- 706: x238 += einsum("ijab->ijab", x90)
    .add 137 (.ein [(256, [0, 1, 2, 3])] [0, 1, 2, 3]) 1 1,
    -- 707: del x90
    .del 256,
    -- 708: x92 = np.zeros((nocc[0], nocc[0], nvir[0], nvir[0]), dtype=types[float])
    .zeros 258 [0, 0, 1, 1],
    -- 709: x92 -= einsum("ijab->jiab", t2.aaaa)
    .add 258 (.ein [(10, [0, 1, 2, 3])] [1, 0, 2, 3]) (-1) 1,
    -- 710: x92 += einsum("ijab->jiba", t2.aaaa)
    .add 258 (.ein [(10, [0, 1, 2, 3])] [1, 0, 3, 2]) 1 1,
    -- 711: x93 = np.zeros((nocc[0], nocc[0], nvir[0], nvir[0]), dtype=types[float])
    .zeros 259 [0, 0, 1, 1],
    -- 712: x93 += einsum("ijab,ikcb->jkac", x16, x92)
    .add 259 (.ein [(142, [0, 1, 2, 3]), (258, [0, 4, 5, 3])] [1, 4, 2, 5]) 1 1,
    -- 713: del x16
    .del 142,
    -- 714: x123 -= einsum("ijab->jiba", x93)
    .add 155 (.ein [(259, [0, 1, 2, 3])] [1, 0, 3, 2]) (-1) 1,
    -- 715: del x93
    .del 259,
    -- 716: x99 = np.zeros((nocc[0], nocc[0], nocc[0], nvir[0]), dtype=types[float])
    .zeros 260 [0, 0, 0, 1],
    -- 717: x99 += einsum("ijab,klib->jkla", x92, x98)
    .add 260 (.ein [(258, [0, 1, 2, 3]), (73, [4, 5, 0, 3])] [1, 4, 5, 2]) 1 1,
    -- 718: del x98
    .del 73,
    -- 719: del x92
    .del 258,
    -- 720: x105 += einsum("ijka->kjia", x99)
    .add 144 (.ein [(260, [0, 1, 2, 3])] [2, 1, 0, 3]) 1 1,
    -- 721: del x99
    .del 260,
    -- 722: x94 = np.zeros((nocc[0], nocc[0], nvir[0], nvir[0]), dtype=types[float])
    .zeros 261 [0, 0, 1, 1],
    -- 723: x94 -= einsum("iajb->jiab", v.aaaa.ovov)
    .add 261 (.ein [(9, [0, 1, 2, 3])] [2, 0, 1, 3]) (-1) 1,
    -- 724: x94 += einsum("iajb->jiba", v.aaaa.ovov)
    .add 261 (.ein [(9, [0, 1, 2, 3])] [2, 0, 3, 1]) 1 1,
    -- 725: x95 = np.zeros((nocc[0], nocc[0], nvir[0], nvir[0]), dtype=types[float])
    .zeros 262 [0, 0, 1, 1],
    -- 726: x95 += einsum("ijab,ikcb->jkac", t2.aaaa, x94)
    .add 262 (.ein [(10, [0, 1, 2, 3]), (261, [0, 4, 5, 3])] [1, 4, 2, 5]) 1 1,
    -- 727: x96 = np.zeros((nocc[0], nocc[0], nvir[0], nvir[0]), dtype=types[float])
    .zeros 263 [0, 0, 1, 1],
    -- 728: x96 -= einsum("ijab,kica->jkbc", t2.aaaa, x95)
    .add 263 (.ein [(10, [0, 1, 2, 3]), (262, [4, 0, 5, 2])] [1, 4, 3, 5]) (-1) 1,
    -- 729: x123 -= einsum("ijab->ijab", x96)
    .add 155 (.ein [(263, [0, 1, 2, 3])] [0, 1, 2, 3]) (-1) 1,
    -- 730: del x96
    .del 263,
    -- 731: x129 = np.zeros((nocc[0], nocc[0], nvir[0], nvir[0]), dtype=types[float])
    .zeros 264 [0, 0, 1, 1],
    -- 732: x129 -= einsum("ijab,kicb->jkac", t2.aaaa, x95)
    .add 264 (.ein [(10, [0, 1, 2, 3]), (262, [4, 0, 5, 3])] [1, 4, 2, 5]) (-1) 1,
    -- 733: del x95
    .del 262,
    -- 734: x133 += einsum("ijab->jiba", x129)
    .add 77 (.ein [(264, [0, 1, 2, 3])] [1, 0, 3, 2]) 1 1,
    -- 735: del x129
    .del 264,
    -- 736: x127 = np.zeros((nocc[0], nocc[0], nvir[0], nvir[0]), dtype=types[float])
    .zeros 265 [0, 0, 1, 1],
    -- 737: x127 += einsum("ijab,ikca->jkbc", t2.aaaa, x94)
    .add 265 (.ein [(10, [0, 1, 2, 3]), (261, [0, 4, 5, 2])] [1, 4, 3, 5]) 1 1,
    -- 738: del x94
    .del 261,
    -- 739: x128 = np.zeros((nocc[0], nocc[0], nvir[0], nvir[0]), dtype=types[float])
    .zeros 266 [0, 0, 1, 1],
    -- 740: x128 -= einsum("ijab,kica->jkbc", t2.aaaa, x127)
    .add 266 (.ein [(10, [0, 1, 2, 3]), (265, [4, 0, 5, 2])] [1, 4, 3, 5]) (-1) 1,
    -- 741: del x127
    .del 265,
    -- 742: x133 += einsum("ijab->ijab", x128)
    .add 77 (.ein [(266, [0, 1, 2, 3])] [0, 1, 2, 3]) 1 1,
    -- 743: del x128
    .del 266,
    -- 744: x97 = np.zeros((nocc[0], nocc[0], nocc[0], nvir[0]), dtype=types[float])
    .zeros 267 [0, 0, 0, 1],
    -- 745: x97 += einsum("ijab,kljb->ikla", t2.abab, v.aabb.ooov)
    .add 267 (.ein [(14, [0, 1, 2, 3]), (15, [4, 5, 1, 3])] [0, 4, 5, 2]) 1 1,
    -- 746: x105 += einsum("ijka->jika", x97)
    .add 144 (.ein [(267, [0, 1, 2, 3])] [1, 0, 2, 3]) 1 1,
    -- 747: del x97
    .del 267,
    -- 748: x100 = np.zeros((nocc[0], nocc[0], nvir[0], nvir[0]), dtype=types[float])
    .zeros 268 [0, 0, 1, 1],
    -- 749: x100 += einsum("iajb->jiab", v.aaaa.ovov)
    .add 268 (.ein [(9, [0, 1, 2, 3])] [2, 0, 1, 3]) 1 1,
    -- 750: x100 -= einsum("iajb->jiba", v.aaaa.ovov)
    .add 268 (.ein [(9, [0, 1, 2, 3])] [2, 0, 3, 1]) (-1) 1,
    -- 751: x101 = np.zeros((nocc[0], nvir[0]), dtype=types[float])
    .zeros 269 [0, 1],
    -- 752: x101 += einsum("ia,ijab->jb", t1.aa, x100)
    .add 269 (.ein [(8, [0, 1]), (268, [0, 2, 1, 3])] [2, 3]) 1 1,
    -- 753: x102 -= einsum("ia->ia", x101)
    .add 96 (.ein [(269, [0, 1])] [0, 1]) (-1) 1,
    -- 754: x300 -= einsum("ia->ia", x101)
    .add 97 (.ein [(269, [0, 1])] [0, 1]) (-1) 1,
    -- 755: del x101
    .del 269,
    -- 756: x229 = np.zeros((nocc[0], nocc[1], nvir[0], nvir[1]), dtype=types[float])
    .zeros 270 [0, 4, 1, 5],
    -- 757: x229 += einsum("ijab,ikac->kjcb", t2.abab, x100)
    .add 270 (.ein [(14, [0, 1, 2, 3]), (268, [0, 4, 2, 5])] [4, 1, 5, 3]) 1 1,
    -- 758: x230 = np.zeros((nocc[1], nocc[1], nvir[1], nvir[1]), dtype=types[float])
    .zeros 271 [4, 4, 5, 5],
    -- 759: x230 -= einsum("ijab,ikac->kjcb", t2.abab, x229)
    .add 271 (.ein [(14, [0, 1, 2, 3]), (270, [0, 4, 2, 5])] [4, 1, 5, 3]) (-1) 1,
    -- 760: del x229
    .del 270,
    -- 761: t2new_bbbb = np.zeros((nocc[1], nocc[1], nvir[1], nvir[1]), dtype=types[float])
    .zeros 272 [4, 4, 5, 5],
    -- 762: t2new_bbbb -= einsum("ijab->ijba", x230)
    .add 272 (.ein [(271, [0, 1, 2, 3])] [0, 1, 3, 2]) (-1) 1,
    -- 763: t2new_bbbb += einsum("ijab->jiba", x230)
    .add 272 (.ein [(271, [0, 1, 2, 3])] [1, 0, 3, 2]) 1 1,
    -- 764: del x230
    .del 271,
    -- 765: x311 = np.zeros((nbos, nocc[0], nvir[0]), dtype=types[float])
    .zeros 273 [2, 0, 1],
    -- 766: x311 -= einsum("wia,ijab->wjb", u11.aa, x100)
    .add 273 (.ein [(18, [0, 1, 2]), (268, [1, 3, 2, 4])] [0, 3, 4]) (-1) 1,
    -- 767: del x100
    .del 268,
    -- 768: s2new = np.zeros((nbos, nbos), dtype=types[float])
    .zeros 274 [2, 2],
    -- 769: s2new += einsum("wia,xia->xw", u11.aa, x311)
    .add 274 (.ein [(18, [0, 1, 2]), (273, [3, 1, 2])] [3, 0]) 1 1,
    -- 770: del x311
    .del 273,
    -- 771: x102 += einsum("ia->ia", f.aa.ov)
    .add 96 (.ein [(19, [0, 1])] [0, 1]) 1 1,
    -- 772: x103 = np.zeros((nocc[0], nocc[0], nocc[0], nvir[0]), dtype=types[float])
    .zeros 275 [0, 0, 0, 1],
    -- 773: x103 += einsum("ia,jkab->jkib", x102, t2.aaaa)
    .add 275 (.ein [(96, [0, 1]), (10, [2, 3, 1, 4])] [2, 3, 0, 4]) 1 1,
    -- 774: x105 += einsum("ijka->kjia", x103)
    .add 144 (.ein [(275, [0, 1, 2, 3])] [2, 1, 0, 3]) 1 1,
    -- 775: del x103
    .del 275,
    -- 776: x107 = np.zeros((nocc[0], nocc[0]), dtype=types[float])
    .zeros 276 [0, 0],
    -- 777: x107 += einsum("ia,ja->ij", t1.aa, x102)
    .add 276 (.ein [(8, [0, 1]), (96, [2, 1])] [0, 2]) 1 1,
    -- 778: del x102
    .del 96,
    -- 779: x108 += einsum("ij->ij", x107)
    .add 150 (.ein [(276, [0, 1])] [0, 1]) 1 1,
    -- 780: del x107
    .del 276,
    -- 781: x105 -= einsum("ijak->ijka", v.aaaa.oovo)
    .add 144 (.ein [(41, [0, 1, 2, 3])] [0, 1, 3, 2]) (-1) 1,
    -- 782: x106 = np.zeros((nocc[0], nocc[0], nvir[0], nvir[0]), dtype=types[float])
    .zeros 277 [0, 0, 1, 1],
    -- 783: x106 += einsum("ia,ijkb->jkab", t1.aa, x105)
    .add 277 (.ein [(8, [0, 1]), (144, [0, 2, 3, 4])] [2, 3, 1, 4]) 1 1,
    -- 784: del x105
    .del 144,
    -- 785: x123 += einsum("ijab->ijab", x106)
    .add 155 (.ein [(277, [0, 1, 2, 3])] [0, 1, 2, 3]) 1 1,
    -- 786: del x106
    .del 277,
    -- 787: x108 += einsum("ij->ji", f.aa.oo)
    .add 150 (.ein [(26, [0, 1])] [1, 0]) 1 1,
    -- 788: x109 = np.zeros((nocc[0], nocc[0], nvir[0], nvir[0]), dtype=types[float])
    .zeros 278 [0, 0, 1, 1],
    -- 789: x109 += einsum("ij,jkab->kiab", x108, t2.aaaa)
    .add 278 (.ein [(150, [0, 1]), (10, [1, 2, 3, 4])] [2, 0, 3, 4]) 1 1,
    -- 790: del x108
    .del 150,
    -- 791: x123 += einsum("ijab->jiba", x109)
    .add 155 (.ein [(278, [0, 1, 2, 3])] [1, 0, 3, 2]) 1 1,
    -- 792: del x109
    .del 278,
    -- 793: x110 = np.zeros((nbos, nocc[0], nvir[0]), dtype=types[float])
    .zeros 279 [2, 0, 1],
    -- 794: x110 += einsum("ia,wba->wib", t1.aa, g.aa.bvv)
    .add 279 (.ein [(8, [0, 1]), (3, [2, 3, 1])] [2, 0, 3]) 1 1,
    -- 795: x114 += einsum("wia->wia", x110)
    .add 119 (.ein [(279, [0, 1, 2])] [0, 1, 2]) 1 1,
    -- 796: del x110
    .del 279,
    -- 797: x111 = np.zeros((nbos, nocc[0], nvir[0]), dtype=types[float])
    .zeros 280 [2, 0, 1],
    -- 798: x111 += einsum("wia,jiba->wjb", g.bb.bov, t2.abab)
    .add 280 (.ein [(6, [0, 1, 2]), (14, [3, 1, 4, 2])] [0, 3, 4]) 1 1,
    -- 799: x114 += einsum("wia->wia", x111)
    .add 119 (.ein [(280, [0, 1, 2])] [0, 1, 2]) 1 1,
    -- 800: del x111
    .del 280,
    -- 801: x114 += einsum("wai->wia", g.aa.bvo)
    .add 119 (.ein [(1, [0, 1, 2])] [0, 2, 1]) 1 1,
    -- 802: x115 = np.zeros((nocc[0], nocc[0], nvir[0], nvir[0]), dtype=types[float])
    .zeros 281 [0, 0, 1, 1],
    -- 803: x115 += einsum("wia,wjb->ijab", u11.aa, x114)
    .add 281 (.ein [(18, [0, 1, 2]), (119, [0, 3, 4])] [1, 3, 2, 4]) 1 1,
    -- 804: x123 += einsum("ijab->jiba", x115)
    .add 155 (.ein [(281, [0, 1, 2, 3])] [1, 0, 3, 2]) 1 1,
    -- 805: del x115
    .del 281,
    -- 806: x296 = np.zeros((nocc[0], nocc[1], nvir[0], nvir[1]), dtype=types[float])
    .zeros 282 [0, 4, 1, 5],
    -- 807: x296 += einsum("wia,wjb->jiba", u11.bb, x114)
    .add 282 (.ein [(22, [0, 1, 2]), (119, [0, 3, 4])] [3, 1, 4, 2]) 1 1,
    -- 808: del x114
    .del 119,
    -- 809: t2new_baba += einsum("ijab->jiba", x296)
    .add 165 (.ein [(282, [0, 1, 2, 3])] [1, 0, 3, 2]) 1 1,
    -- 810: t2new_abab += einsum("ijab->ijab", x296)
    .add 166 (.ein [(282, [0, 1, 2, 3])] [0, 1, 2, 3]) 1 1,
    -- 811: del x296
    .del 282,
    -- 812: x116 += einsum("ab->ab", f.aa.vv)
    .add 168 (.ein [(28, [0, 1])] [0, 1]) 1 1,
    -- 813: x117 = np.zeros((nocc[0], nocc[0], nvir[0], nvir[0]), dtype=types[float])
    .zeros 283 [0, 0, 1, 1],
    -- 814: x117 += einsum("ab,ijbc->ijca", x116, t2.aaaa)
    .add 283 (.ein [(168, [0, 1]), (10, [2, 3, 1, 4])] [2, 3, 4, 0]) 1 1,
    -- 815: del x116
    .del 168,
    -- 816: x123 -= einsum("ijab->jiba", x117)
    .add 155 (.ein [(283, [0, 1, 2, 3])] [1, 0, 3, 2]) (-1) 1,
    -- 817: del x117
    .del 283,
    -- 818: x118 = np.zeros((nvir[0], nvir[0]), dtype=types[float])
    .zeros 284 [1, 1],
    -- 819: x118 += einsum("wia,wib->ab", g.aa.bov, u11.aa)
    .add 284 (.ein [(2, [0, 1, 2]), (18, [0, 1, 3])] [2, 3]) 1 1,
    -- 820: x119 += einsum("ab->ab", x118)
    .add 170 (.ein [(284, [0, 1])] [0, 1]) 1 1,
    -- 821: x120 = np.zeros((nocc[0], nocc[0], nvir[0], nvir[0]), dtype=types[float])
    .zeros 285 [0, 0, 1, 1],
    -- 822: x120 += einsum("ab,ijac->ijcb", x119, t2.aaaa)
    .add 285 (.ein [(170, [0, 1]), (10, [2, 3, 0, 4])] [2, 3, 4, 1]) 1 1,
    -- 823: del x119
    .del 170,
    -- 824: x123 -= einsum("ijab->jiab", x120)
    .add 155 (.ein [(285, [0, 1, 2, 3])] [1, 0, 2, 3]) (-1) 1,
    -- 825: del x120
    .del 285,
    -- 826: t2new_aaaa += einsum("ijab->ijab", x123)
    .add 253 (.ein [(155, [0, 1, 2, 3])] [0, 1, 2, 3]) 1 1,
    -- 827: t2new_aaaa -= einsum("ijab->ijba", x123)
    .add 253 (.ein [(155, [0, 1, 2, 3])] [0, 1, 3, 2]) (-1) 1,
    -- 828: t2new_aaaa -= einsum("ijab->jiab", x123)
    .add 253 (.ein [(155, [0, 1, 2, 3])] [1, 0, 2, 3]) (-1) 1,
    -- 829: t2new_aaaa += einsum("ijab->jiba", x123)
    .add 253 (.ein [(155, [0, 1, 2, 3])] [1, 0, 3, 2]) 1 1,
    -- 830: del x123
    .del 155,
    -- 831: x280 += einsum("ab->ba", x118) * -1
    .add 85 (.ein [(284, [0, 1])] [1, 0]) (-1) 1,
    -- 832: x321 += einsum("ab->ba", x118) * -1
    .add 86 (.ein [(284, [0, 1])] [1, 0]) (-1) 1,
    -- 833: del x118
    .del 284,
    -- 834: x130 = np.zeros((nocc[1], nocc[1], nvir[1], nvir[1]), dtype=types[float])
    .zeros 286 [4, 4, 5, 5],
    -- 835: x130 -= einsum("iajb->jiab", v.bbbb.ovov)
    .add 286 (.ein [(21, [0, 1, 2, 3])] [2, 0, 1, 3]) (-1) 1,
    -- 836: x130 += einsum("iajb->jiba", v.bbbb.ovov)
    .add 286 (.ein [(21, [0, 1, 2, 3])] [2, 0, 3, 1]) 1 1,
    -- 837: x131 = np.zeros((nocc[0], nocc[1], nvir[0], nvir[1]), dtype=types[float])
    .zeros 287 [0, 4, 1, 5],
    -- 838: x131 += einsum("ijab,jkcb->ikac", t2.abab, x130)
    .add 287 (.ein [(14, [0, 1, 2, 3]), (286, [1, 4, 5, 3])] [0, 4, 2, 5]) 1 1,
    -- 839: x132 = np.zeros((nocc[0], nocc[0], nvir[0], nvir[0]), dtype=types[float])
    .zeros 288 [0, 0, 1, 1],
    -- 840: x132 -= einsum("ijab,kjcb->ikac", t2.abab, x131)
    .add 288 (.ein [(14, [0, 1, 2, 3]), (287, [4, 1, 5, 3])] [0, 4, 2, 5]) (-1) 1,
    -- 841: del x131
    .del 287,
    -- 842: x133 += einsum("ijab->ijab", x132)
    .add 77 (.ein [(288, [0, 1, 2, 3])] [0, 1, 2, 3]) 1 1,
    -- 843: del x132
    .del 288,
    -- 844: t2new_aaaa += einsum("ijab->ijab", x133)
    .add 253 (.ein [(77, [0, 1, 2, 3])] [0, 1, 2, 3]) 1 1,
    -- 845: t2new_aaaa -= einsum("ijab->ijba", x133)
    .add 253 (.ein [(77, [0, 1, 2, 3])] [0, 1, 3, 2]) (-1) 1,
    -- 846: del x133
    .del 77,
    -- 847: x152 = np.zeros((nocc[1], nocc[1], nvir[1], nvir[1]), dtype=types[float])
    .zeros 289 [4, 4, 5, 5],
    -- 848: x152 += einsum("ijab,ikcb->jkac", t2.bbbb, x130)
    .add 289 (.ein [(20, [0, 1, 2, 3]), (286, [0, 4, 5, 3])] [1, 4, 2, 5]) 1 1,
    -- 849: x153 = np.zeros((nocc[1], nocc[1], nvir[1], nvir[1]), dtype=types[float])
    .zeros 290 [4, 4, 5, 5],
    -- 850: x153 -= einsum("ijab,kica->jkbc", t2.bbbb, x152)
    .add 290 (.ein [(20, [0, 1, 2, 3]), (289, [4, 0, 5, 2])] [1, 4, 3, 5]) (-1) 1,
    -- 851: x180 -= einsum("ijab->ijab", x153)
    .add 213 (.ein [(290, [0, 1, 2, 3])] [0, 1, 2, 3]) (-1) 1,
    -- 852: del x153
    .del 290,
    -- 853: x186 = np.zeros((nocc[1], nocc[1], nvir[1], nvir[1]), dtype=types[float])
    .zeros 291 [4, 4, 5, 5],
    -- 854: x186 -= einsum("ijab,kicb->jkac", t2.bbbb, x152)
    .add 291 (.ein [(20, [0, 1, 2, 3]), (289, [4, 0, 5, 3])] [1, 4, 2, 5]) (-1) 1,
    -- 855: del x152
    .del 289,
    -- 856: x187 += einsum("ijab->ijab", x186)
    .add 181 (.ein [(291, [0, 1, 2, 3])] [0, 1, 2, 3]) 1 1,
    -- 857: del x186
    .del 291,
    -- 858: x158 = np.zeros((nocc[1], nvir[1]), dtype=types[float])
    .zeros 292 [4, 5],
    -- 859: x158 += einsum("ia,ijba->jb", t1.bb, x130)
    .add 292 (.ein [(17, [0, 1]), (286, [0, 2, 3, 1])] [2, 3]) 1 1,
    -- 860: x159 -= einsum("ia->ia", x158)
    .add 122 (.ein [(292, [0, 1])] [0, 1]) (-1) 1,
    -- 861: x301 -= einsum("ia->ia", x158)
    .add 123 (.ein [(292, [0, 1])] [0, 1]) (-1) 1,
    -- 862: del x158
    .del 292,
    -- 863: x184 = np.zeros((nocc[1], nocc[1], nvir[1], nvir[1]), dtype=types[float])
    .zeros 293 [4, 4, 5, 5],
    -- 864: x184 += einsum("ijab,ikca->jkbc", t2.bbbb, x130)
    .add 293 (.ein [(20, [0, 1, 2, 3]), (286, [0, 4, 5, 2])] [1, 4, 3, 5]) 1 1,
    -- 865: x185 = np.zeros((nocc[1], nocc[1], nvir[1], nvir[1]), dtype=types[float])
    .zeros 294 [4, 4, 5, 5],
    -- 866: x185 -= einsum("ijab,kica->jkbc", t2.bbbb, x184)
    .add 294 (.ein [(20, [0, 1, 2, 3]), (293, [4, 0, 5, 2])] [1, 4, 3, 5]) (-1) 1,
    -- 867: del x184
    .del 293,
    -- 868: x187 += einsum("ijab->jiba", x185)
    .add 181 (.ein [(294, [0, 1, 2, 3])] [1, 0, 3, 2]) 1 1,
    -- 869: del x185
    .del 294,
    -- 870: t2new_bbbb += einsum("ijab->ijab", x187)
    .add 272 (.ein [(181, [0, 1, 2, 3])] [0, 1, 2, 3]) 1 1,
    -- 871: t2new_bbbb -= einsum("ijab->ijba", x187)
    .add 272 (.ein [(181, [0, 1, 2, 3])] [0, 1, 3, 2]) (-1) 1,
    -- 872: del x187
    .del 181,
    -- 873: x312 = np.zeros((nbos, nocc[1], nvir[1]), dtype=types[float])
    .zeros 295 [2, 4, 5],
    -- 874: x312 -= einsum("wia,ijba->wjb", u11.bb, x130)
    .add 295 (.ein [(22, [0, 1, 2]), (286, [1, 3, 4, 2])] [0, 3, 4]) (-1) 1,
    -- 875: del x130
    .del 286,
    -- 876: s2new += einsum("wia,xia->xw", u11.bb, x312)
    .add 274 (.ein [(22, [0, 1, 2]), (295, [3, 1, 2])] [3, 0]) 1 1,
    -- 877: del x312
    .del 295,
    -- 878: x134 = np.zeros((nocc[0], nocc[0], nvir[0], nvir[0]), dtype=types[float])
    .zeros 296 [0, 0, 1, 1],
    -- 879: x134 += einsum("ijab,ikjl->klab", t2.aaaa, v.aaaa.oooo)
    .add 296 (.ein [(10, [0, 1, 2, 3]), (42, [0, 4, 1, 5])] [4, 5, 2, 3]) 1 1,
    -- 880: x136 = np.zeros((nocc[0], nocc[0], nvir[0], nvir[0]), dtype=types[float])
    .zeros 297 [0, 0, 1, 1],
    -- 881: x136 += einsum("ijab->jiba", x134)
    .add 297 (.ein [(296, [0, 1, 2, 3])] [1, 0, 3, 2]) 1 1,
    -- 882: del x134
    .del 296,
    -- 883: x135 = np.zeros((nocc[0], nocc[0], nvir[0], nvir[0]), dtype=types[float])
    .zeros 298 [0, 0, 1, 1],
    -- 884: x135 += einsum("ijab,cadb->ijcd", t2.aaaa, v.aaaa.vvvv)
    .add 298 (.ein [(10, [0, 1, 2, 3]), (43, [4, 2, 5, 3])] [0, 1, 4, 5]) 1 1,
    -- 885: x136 += einsum("ijab->jiba", x135)
    .add 297 (.ein [(298, [0, 1, 2, 3])] [1, 0, 3, 2]) 1 1,
    -- 886: del x135
    .del 298,
    -- 887: t2new_aaaa += einsum("ijab->ijba", x136) * -1
    .add 253 (.ein [(297, [0, 1, 2, 3])] [0, 1, 3, 2]) (-1) 1,
    -- 888: t2new_aaaa += einsum("ijab->ijab", x136)
    .add 253 (.ein [(297, [0, 1, 2, 3])] [0, 1, 2, 3]) 1 1,
    -- 889: del x136
    .del 297,
    -- 890: x137 = np.zeros((nocc[0], nocc[0], nocc[0], nvir[0]), dtype=types[float])
    .zeros 299 [0, 0, 0, 1],
    -- 891: x137 += einsum("ia,jkil->jkla", t1.aa, v.aaaa.oooo)
    .add 299 (.ein [(8, [0, 1]), (42, [2, 3, 0, 4])] [2, 3, 4, 1]) 1 1,
    -- 892: x138 = np.zeros((nocc[0], nocc[0], nvir[0], nvir[0]), dtype=types[float])
    .zeros 300 [0, 0, 1, 1],
    -- 893: x138 += einsum("ia,ijkb->jkab", t1.aa, x137)
    .add 300 (.ein [(8, [0, 1]), (299, [0, 2, 3, 4])] [2, 3, 1, 4]) 1 1,
    -- 894: del x137
    .del 299,
    -- 895: x145 += einsum("ijab->ijab", x138)
    .add 79 (.ein [(300, [0, 1, 2, 3])] [0, 1, 2, 3]) 1 1,
    -- 896: del x138
    .del 300,
    -- 897: x139 = np.zeros((nocc[0], nvir[0], nvir[0], nvir[0]), dtype=types[float])
    .zeros 301 [0, 1, 1, 1],
    -- 898: x139 += einsum("ia,bacd->icbd", t1.aa, v.aaaa.vvvv)
    .add 301 (.ein [(8, [0, 1]), (43, [2, 1, 3, 4])] [0, 3, 2, 4]) 1 1,
    -- 899: x140 = np.zeros((nocc[0], nocc[0], nvir[0], nvir[0]), dtype=types[float])
    .zeros 302 [0, 0, 1, 1],
    -- 900: x140 += einsum("ia,jbca->ijbc", t1.aa, x139)
    .add 302 (.ein [(8, [0, 1]), (301, [2, 3, 4, 1])] [0, 2, 3, 4]) 1 1,
    -- 901: del x139
    .del 301,
    -- 902: x145 += einsum("ijab->ijab", x140)
    .add 79 (.ein [(302, [0, 1, 2, 3])] [0, 1, 2, 3]) 1 1,
    -- 903: del x140
    .del 302,
    -- 904: x142 = np.zeros((nocc[0], nocc[0], nocc[0], nocc[0]), dtype=types[float])
    .zeros 303 [0, 0, 0, 0],
    -- 905: x142 += einsum("ijab,kalb->ijkl", t2.aaaa, v.aaaa.ovov)
    .add 303 (.ein [(10, [0, 1, 2, 3]), (9, [4, 2, 5, 3])] [0, 1, 4, 5]) 1 1,
    -- 906: x143 = np.zeros((nocc[0], nocc[0], nvir[0], nvir[0]), dtype=types[float])
    .zeros 304 [0, 0, 1, 1],
    -- 907: x143 += einsum("ijab->jiba", t2.aaaa)
    .add 304 (.ein [(10, [0, 1, 2, 3])] [1, 0, 3, 2]) 1 1,
    -- 908: x143 += einsum("ia,jb->ijab", t1.aa, t1.aa)
    .add 304 (.ein [(8, [0, 1]), (8, [2, 3])] [0, 2, 1, 3]) 1 1,
    -- 909: x144 = np.zeros((nocc[0], nocc[0], nvir[0], nvir[0]), dtype=types[float])
    .zeros 305 [0, 0, 1, 1],
    -- 910: x144 += einsum("ijkl,klab->ijab", x142, x143)
    .add 305 (.ein [(303, [0, 1, 2, 3]), (304, [2, 3, 4, 5])] [0, 1, 4, 5]) 1 1,
    -- 911: del x142
    .del 303,
    -- 912: del x143
    .del 304,
    -- 913: x145 += einsum("ijab->jiba", x144)
    .add 79 (.ein [(305, [0, 1, 2, 3])] [1, 0, 3, 2]) 1 1,
    -- 914: del x144
    .del 305,
    -- 915: t2new_aaaa += einsum("ijab->ijab", x145)
    .add 253 (.ein [(79, [0, 1, 2, 3])] [0, 1, 2, 3]) 1 1,
    -- 916: t2new_aaaa += einsum("ijab->ijba", x145) * -1
    .add 253 (.ein [(79, [0, 1, 2, 3])] [0, 1, 3, 2]) (-1) 1,
    -- 917: del x145
    .del 79,
    -- 918: x146 = np.zeros((nocc[1], nocc[1], nvir[1], nvir[1]), dtype=types[float])
    .zeros 306 [4, 4, 5, 5],
    -- 919: x146 += einsum("ia,bjca->ijbc", t1.bb, v.bbbb.vovv)
    .add 306 (.ein [(17, [0, 1]), (44, [2, 3, 4, 1])] [0, 3, 2, 4]) 1 1,
    -- 920: x180 -= einsum("ijab->ijab", x146)
    .add 213 (.ein [(306, [0, 1, 2, 3])] [0, 1, 2, 3]) (-1) 1,
    -- 921: del x146
    .del 306,
    -- 922: x147 = np.zeros((nocc[1], nocc[1], nvir[1], nvir[1]), dtype=types[float])
    .zeros 307 [4, 4, 5, 5],
    -- 923: x147 += einsum("ijab,iack->jkbc", t2.abab, v.aabb.ovvo)
    .add 307 (.ein [(14, [0, 1, 2, 3]), (45, [0, 2, 4, 5])] [1, 5, 3, 4]) 1 1,
    -- 924: x180 += einsum("ijab->ijab", x147)
    .add 213 (.ein [(307, [0, 1, 2, 3])] [0, 1, 2, 3]) 1 1,
    -- 925: del x147
    .del 307,
    -- 926: x148 = np.zeros((nocc[0], nocc[1], nvir[0], nvir[1]), dtype=types[float])
    .zeros 308 [0, 4, 1, 5],
    -- 927: x148 += einsum("ia,jbca->jibc", t1.bb, v.aabb.ovvv)
    .add 308 (.ein [(17, [0, 1]), (37, [2, 3, 4, 1])] [2, 0, 3, 4]) 1 1,
    -- 928: x149 = np.zeros((nocc[1], nocc[1], nvir[1], nvir[1]), dtype=types[float])
    .zeros 309 [4, 4, 5, 5],
    -- 929: x149 += einsum("ijab,ikac->kjbc", t2.abab, x148)
    .add 309 (.ein [(14, [0, 1, 2, 3]), (308, [0, 4, 2, 5])] [4, 1, 3, 5]) 1 1,
    -- 930: x180 -= einsum("ijab->ijab", x149)
    .add 213 (.ein [(309, [0, 1, 2, 3])] [0, 1, 2, 3]) (-1) 1,
    -- 931: del x149
    .del 309,
    -- 932: x243 = np.zeros((nocc[0], nocc[1], nvir[0], nvir[1]), dtype=types[float])
    .zeros 310 [0, 4, 1, 5],
    -- 933: x243 += einsum("ijab->ijab", x148)
    .add 310 (.ein [(308, [0, 1, 2, 3])] [0, 1, 2, 3]) 1 1,
    -- 934: x289 = np.zeros((nocc[0], nocc[1], nvir[0], nvir[1]), dtype=types[float])
    .zeros 311 [0, 4, 1, 5],
    -- 935: x289 += einsum("ijab->ijab", x148)
    .add 311 (.ein [(308, [0, 1, 2, 3])] [0, 1, 2, 3]) 1 1,
    -- 936: del x148
    .del 308,
    -- 937: x150 = np.zeros((nocc[1], nocc[1], nvir[1], nvir[1]), dtype=types[float])
    .zeros 312 [4, 4, 5, 5],
    -- 938: x150 -= einsum("ijab->jiab", t2.bbbb)
    .add 312 (.ein [(20, [0, 1, 2, 3])] [1, 0, 2, 3]) (-1) 1,
    -- 939: x150 += einsum("ijab->jiba", t2.bbbb)
    .add 312 (.ein [(20, [0, 1, 2, 3])] [1, 0, 3, 2]) 1 1,
    -- 940: x151 = np.zeros((nocc[1], nocc[1], nvir[1], nvir[1]), dtype=types[float])
    .zeros 313 [4, 4, 5, 5],
    -- 941: x151 += einsum("ijab,ikcb->kjca", x150, x42)
    .add 313 (.ein [(312, [0, 1, 2, 3]), (199, [0, 4, 5, 3])] [4, 1, 5, 2]) 1 1,
    -- 942: del x42
    .del 199,
    -- 943: x180 -= einsum("ijab->jiba", x151)
    .add 213 (.ein [(313, [0, 1, 2, 3])] [1, 0, 3, 2]) (-1) 1,
    -- 944: del x151
    .del 313,
    -- 945: x169 = np.zeros((nbos, nocc[1], nvir[1]), dtype=types[float])
    .zeros 314 [2, 4, 5],
    -- 946: x169 += einsum("wia,ijba->wjb", g.bb.bov, x150)
    .add 314 (.ein [(6, [0, 1, 2]), (312, [1, 3, 4, 2])] [0, 3, 4]) 1 1,
    -- 947: del x150
    .del 312,
    -- 948: x171 -= einsum("wia->wia", x169)
    .add 206 (.ein [(314, [0, 1, 2])] [0, 1, 2]) (-1) 1,
    -- 949: del x169
    .del 314,
    -- 950: x154 = np.zeros((nocc[1], nocc[1], nocc[1], nvir[1]), dtype=types[float])
    .zeros 315 [4, 4, 4, 5],
    -- 951: x154 += einsum("ijab,iakl->jklb", t2.abab, v.aabb.ovoo)
    .add 315 (.ein [(14, [0, 1, 2, 3]), (33, [0, 2, 4, 5])] [1, 4, 5, 3]) 1 1,
    -- 952: x162 += einsum("ijka->jika", x154)
    .add 201 (.ein [(315, [0, 1, 2, 3])] [1, 0, 2, 3]) 1 1,
    -- 953: del x154
    .del 315,
    -- 954: x156 = np.zeros((nocc[1], nocc[1], nvir[1], nvir[1]), dtype=types[float])
    .zeros 316 [4, 4, 5, 5],
    -- 955: x156 += einsum("ijab->jiab", t2.bbbb)
    .add 316 (.ein [(20, [0, 1, 2, 3])] [1, 0, 2, 3]) 1 1,
    -- 956: x156 -= einsum("ijab->jiba", t2.bbbb)
    .add 316 (.ein [(20, [0, 1, 2, 3])] [1, 0, 3, 2]) (-1) 1,
    -- 957: x157 = np.zeros((nocc[1], nocc[1], nocc[1], nvir[1]), dtype=types[float])
    .zeros 317 [4, 4, 4, 5],
    -- 958: x157 += einsum("ijka,klab->ijlb", x155, x156)
    .add 317 (.ein [(177, [0, 1, 2, 3]), (316, [2, 4, 3, 5])] [0, 1, 4, 5]) 1 1,
    -- 959: del x155
    .del 177,
    -- 960: x162 += einsum("ijka->jika", x157)
    .add 201 (.ein [(317, [0, 1, 2, 3])] [1, 0, 2, 3]) 1 1,
    -- 961: del x157
    .del 317,
    -- 962: x159 += einsum("ia->ia", f.bb.ov)
    .add 122 (.ein [(23, [0, 1])] [0, 1]) 1 1,
    -- 963: x160 = np.zeros((nocc[1], nocc[1], nocc[1], nvir[1]), dtype=types[float])
    .zeros 318 [4, 4, 4, 5],
    -- 964: x160 += einsum("ia,jkab->jkib", x159, t2.bbbb)
    .add 318 (.ein [(122, [0, 1]), (20, [2, 3, 1, 4])] [2, 3, 0, 4]) 1 1,
    -- 965: x162 += einsum("ijka->kjia", x160)
    .add 201 (.ein [(318, [0, 1, 2, 3])] [2, 1, 0, 3]) 1 1,
    -- 966: del x160
    .del 318,
    -- 967: x164 = np.zeros((nocc[1], nocc[1]), dtype=types[float])
    .zeros 319 [4, 4],
    -- 968: x164 += einsum("ia,ja->ij", t1.bb, x159)
    .add 319 (.ein [(17, [0, 1]), (122, [2, 1])] [0, 2]) 1 1,
    -- 969: del x159
    .del 122,
    -- 970: x165 += einsum("ij->ij", x164)
    .add 208 (.ein [(319, [0, 1])] [0, 1]) 1 1,
    -- 971: del x164
    .del 319,
    -- 972: x162 -= einsum("ijak->ijka", v.bbbb.oovo)
    .add 201 (.ein [(46, [0, 1, 2, 3])] [0, 1, 3, 2]) (-1) 1,
    -- 973: x163 = np.zeros((nocc[1], nocc[1], nvir[1], nvir[1]), dtype=types[float])
    .zeros 320 [4, 4, 5, 5],
    -- 974: x163 += einsum("ia,ijkb->jkab", t1.bb, x162)
    .add 320 (.ein [(17, [0, 1]), (201, [0, 2, 3, 4])] [2, 3, 1, 4]) 1 1,
    -- 975: del x162
    .del 201,
    -- 976: x180 += einsum("ijab->ijab", x163)
    .add 213 (.ein [(320, [0, 1, 2, 3])] [0, 1, 2, 3]) 1 1,
    -- 977: del x163
    .del 320,
    -- 978: x165 += einsum("ij->ji", f.bb.oo)
    .add 208 (.ein [(36, [0, 1])] [1, 0]) 1 1,
    -- 979: x166 = np.zeros((nocc[1], nocc[1], nvir[1], nvir[1]), dtype=types[float])
    .zeros 321 [4, 4, 5, 5],
    -- 980: x166 += einsum("ij,jkab->kiab", x165, t2.bbbb)
    .add 321 (.ein [(208, [0, 1]), (20, [1, 2, 3, 4])] [2, 0, 3, 4]) 1 1,
    -- 981: del x165
    .del 208,
    -- 982: x180 += einsum("ijab->jiba", x166)
    .add 213 (.ein [(321, [0, 1, 2, 3])] [1, 0, 3, 2]) 1 1,
    -- 983: del x166
    .del 321,
    -- 984: x167 = np.zeros((nbos, nocc[1], nvir[1]), dtype=types[float])
    .zeros 322 [2, 4, 5],
    -- 985: x167 += einsum("ia,wba->wib", t1.bb, g.bb.bvv)
    .add 322 (.ein [(17, [0, 1]), (7, [2, 3, 1])] [2, 0, 3]) 1 1,
    -- 986: x171 += einsum("wia->wia", x167)
    .add 206 (.ein [(322, [0, 1, 2])] [0, 1, 2]) 1 1,
    -- 987: del x167
    .del 322,
    -- 988: x168 = np.zeros((nbos, nocc[1], nvir[1]), dtype=types[float])
    .zeros 323 [2, 4, 5],
    -- 989: x168 += einsum("wia,ijab->wjb", g.aa.bov, t2.abab)
    .add 323 (.ein [(2, [0, 1, 2]), (14, [1, 3, 2, 4])] [0, 3, 4]) 1 1,
    -- 990: x171 += einsum("wia->wia", x168)
    .add 206 (.ein [(323, [0, 1, 2])] [0, 1, 2]) 1 1,
    -- 991: del x168
    .del 323,
    -- 992: x171 += einsum("wai->wia", g.bb.bvo)
    .add 206 (.ein [(5, [0, 1, 2])] [0, 2, 1]) 1 1,
    -- 993: x172 = np.zeros((nocc[1], nocc[1], nvir[1], nvir[1]), dtype=types[float])
    .zeros 324 [4, 4, 5, 5],
    -- 994: x172 += einsum("wia,wjb->ijab", u11.bb, x171)
    .add 324 (.ein [(22, [0, 1, 2]), (206, [0, 3, 4])] [1, 3, 2, 4]) 1 1,
    -- 995: x180 += einsum("ijab->jiba", x172)
    .add 213 (.ein [(324, [0, 1, 2, 3])] [1, 0, 3, 2]) 1 1,
    -- 996: del x172
    .del 324,
    -- 997: x295 = np.zeros((nocc[0], nocc[1], nvir[0], nvir[1]), dtype=types[float])
    .zeros 325 [0, 4, 1, 5],
    -- 998: x295 += einsum("wia,wjb->ijab", u11.aa, x171)
    .add 325 (.ein [(18, [0, 1, 2]), (206, [0, 3, 4])] [1, 3, 2, 4]) 1 1,
    -- 999: del x171
    .del 206,
    -- 1000: t2new_baba += einsum("ijab->jiba", x295)
    .add 165 (.ein [(325, [0, 1, 2, 3])] [1, 0, 3, 2]) 1 1,
    -- 1001: t2new_abab += einsum("ijab->ijab", x295)
    .add 166 (.ein [(325, [0, 1, 2, 3])] [0, 1, 2, 3]) 1 1,
    -- 1002: del x295
    .del 325,
    -- 1003: x173 += einsum("ab->ab", f.bb.vv)
    .add 222 (.ein [(38, [0, 1])] [0, 1]) 1 1,
    -- 1004: x174 = np.zeros((nocc[1], nocc[1], nvir[1], nvir[1]), dtype=types[float])
    .zeros 326 [4, 4, 5, 5],
    -- 1005: x174 += einsum("ab,ijbc->ijca", x173, t2.bbbb)
    .add 326 (.ein [(222, [0, 1]), (20, [2, 3, 1, 4])] [2, 3, 4, 0]) 1 1,
    -- 1006: del x173
    .del 222,
    -- 1007: x180 -= einsum("ijab->jiba", x174)
    .add 213 (.ein [(326, [0, 1, 2, 3])] [1, 0, 3, 2]) (-1) 1,
    -- 1008: del x174
    .del 326,
    -- 1009: x175 = np.zeros((nvir[1], nvir[1]), dtype=types[float])
    .zeros 327 [5, 5],
    -- 1010: x175 += einsum("wia,wib->ab", g.bb.bov, u11.bb)
    .add 327 (.ein [(6, [0, 1, 2]), (22, [0, 1, 3])] [2, 3]) 1 1,
    -- 1011: x176 += einsum("ab->ab", x175)
    .add 225 (.ein [(327, [0, 1])] [0, 1]) 1 1,
    -- 1012: x177 = np.zeros((nocc[1], nocc[1], nvir[1], nvir[1]), dtype=types[float])
    .zeros 328 [4, 4, 5, 5],
    -- 1013: x177 += einsum("ab,ijac->ijcb", x176, t2.bbbb)
    .add 328 (.ein [(225, [0, 1]), (20, [2, 3, 0, 4])] [2, 3, 4, 1]) 1 1,
    -- 1014: del x176
    .del 225,
    -- 1015: x180 -= einsum("ijab->jiab", x177)
    .add 213 (.ein [(328, [0, 1, 2, 3])] [1, 0, 2, 3]) (-1) 1,
    -- 1016: del x177
    .del 328,
    -- 1017: t2new_bbbb += einsum("ijab->ijab", x180)
    .add 272 (.ein [(213, [0, 1, 2, 3])] [0, 1, 2, 3]) 1 1,
    -- 1018: t2new_bbbb -= einsum("ijab->ijba", x180)
    .add 272 (.ein [(213, [0, 1, 2, 3])] [0, 1, 3, 2]) (-1) 1,
    -- 1019: t2new_bbbb -= einsum("ijab->jiab", x180)
    .add 272 (.ein [(213, [0, 1, 2, 3])] [1, 0, 2, 3]) (-1) 1,
    -- 1020: t2new_bbbb += einsum("ijab->jiba", x180)
    .add 272 (.ein [(213, [0, 1, 2, 3])] [1, 0, 3, 2]) 1 1,
    -- 1021: del x180
    .del 213,
    -- 1022: x277 += einsum("ab->ba", x175) * -1
    .add 223 (.ein [(327, [0, 1])] [1, 0]) (-1) 1,
    -- 1023: x327 += einsum("ab->ba", x175) * -1
    .add 133 (.ein [(327, [0, 1])] [1, 0]) (-1) 1,
    -- 1024: del x175
    .del 327,
    -- 1025: x188 = np.zeros((nocc[1], nocc[1], nocc[1], nocc[1]), dtype=types[float])
    .zeros 329 [4, 4, 4, 4],
    -- 1026: x188 += einsum("ia,jkla->ijlk", t1.bb, v.bbbb.ooov)
    .add 329 (.ein [(17, [0, 1]), (31, [2, 3, 4, 1])] [0, 2, 4, 3]) 1 1,
    -- 1027: x189 = np.zeros((nocc[1], nocc[1], nvir[1], nvir[1]), dtype=types[float])
    .zeros 330 [4, 4, 5, 5],
    -- 1028: x189 += einsum("ijab,kijl->klab", t2.bbbb, x188)
    .add 330 (.ein [(20, [0, 1, 2, 3]), (329, [4, 0, 1, 5])] [4, 5, 2, 3]) 1 1,
    -- 1029: x219 += einsum("ijab->ijab", x189)
    .add 197 (.ein [(330, [0, 1, 2, 3])] [0, 1, 2, 3]) 1 1,
    -- 1030: del x189
    .del 330,
    -- 1031: x196 = np.zeros((nocc[1], nocc[1], nocc[1], nvir[1]), dtype=types[float])
    .zeros 331 [4, 4, 4, 5],
    -- 1032: x196 += einsum("ia,jkil->jkla", t1.bb, x188)
    .add 331 (.ein [(17, [0, 1]), (329, [2, 3, 0, 4])] [2, 3, 4, 1]) 1 1,
    -- 1033: del x188
    .del 329,
    -- 1034: x205 += einsum("ijka->ijka", x196)
    .add 127 (.ein [(331, [0, 1, 2, 3])] [0, 1, 2, 3]) 1 1,
    -- 1035: del x196
    .del 331,
    -- 1036: x190 = np.zeros((nvir[1], nvir[1]), dtype=types[float])
    .zeros 332 [5, 5],
    -- 1037: x190 += einsum("ijab,iajc->bc", t2.abab, v.aabb.ovov)
    .add 332 (.ein [(14, [0, 1, 2, 3]), (13, [0, 2, 1, 4])] [3, 4]) 1 1,
    -- 1038: x191 = np.zeros((nocc[1], nocc[1], nvir[1], nvir[1]), dtype=types[float])
    .zeros 333 [4, 4, 5, 5],
    -- 1039: x191 += einsum("ab,ijbc->jiac", x190, t2.bbbb)
    .add 333 (.ein [(332, [0, 1]), (20, [2, 3, 1, 4])] [3, 2, 0, 4]) 1 1,
    -- 1040: x219 += einsum("ijab->ijab", x191) * -1
    .add 197 (.ein [(333, [0, 1, 2, 3])] [0, 1, 2, 3]) (-1) 1,
    -- 1041: del x191
    .del 333,
    -- 1042: x277 += einsum("ab->ab", x190) * -1
    .add 223 (.ein [(332, [0, 1])] [0, 1]) (-1) 1,
    -- 1043: x327 += einsum("ab->ab", x190) * -1
    .add 133 (.ein [(332, [0, 1])] [0, 1]) (-1) 1,
    -- 1044: del x190
    .del 332,
    -- 1045: x197 = np.zeros((nocc[1], nocc[1], nocc[1], nvir[1]), dtype=types[float])
    .zeros 334 [4, 4, 4, 5],
    -- 1046: x197 += einsum("ijab,kbca->jikc", t2.bbbb, v.bbbb.ovvv)
    .add 334 (.ein [(20, [0, 1, 2, 3]), (32, [4, 3, 5, 2])] [1, 0, 4, 5]) 1 1,
    -- 1047: x205 += einsum("ijka->ikja", x197)
    .add 127 (.ein [(334, [0, 1, 2, 3])] [0, 2, 1, 3]) 1 1,
    -- 1048: del x197
    .del 334,
    -- 1049: x198 = np.zeros((nocc[1], nocc[1], nvir[1], nvir[1]), dtype=types[float])
    .zeros 335 [4, 4, 5, 5],
    -- 1050: x198 += einsum("ia,jbca->ijcb", t1.bb, v.bbbb.ovvv)
    .add 335 (.ein [(17, [0, 1]), (32, [2, 3, 4, 1])] [0, 2, 4, 3]) 1 1,
    -- 1051: x199 = np.zeros((nocc[1], nocc[1], nocc[1], nvir[1]), dtype=types[float])
    .zeros 336 [4, 4, 4, 5],
    -- 1052: x199 += einsum("ia,jkba->ijkb", t1.bb, x198)
    .add 336 (.ein [(17, [0, 1]), (335, [2, 3, 4, 1])] [0, 2, 3, 4]) 1 1,
    -- 1053: del x198
    .del 335,
    -- 1054: x205 += einsum("ijka->ikja", x199)
    .add 127 (.ein [(336, [0, 1, 2, 3])] [0, 2, 1, 3]) 1 1,
    -- 1055: del x199
    .del 336,
    -- 1056: x202 = np.zeros((nocc[1], nocc[1], nocc[1], nvir[1]), dtype=types[float])
    .zeros 337 [4, 4, 4, 5],
    -- 1057: x202 += einsum("ijka->ikja", v.bbbb.ooov)
    .add 337 (.ein [(31, [0, 1, 2, 3])] [0, 2, 1, 3]) 1 1,
    -- 1058: x202 += einsum("ijka->kija", v.bbbb.ooov) * -1
    .add 337 (.ein [(31, [0, 1, 2, 3])] [2, 0, 1, 3]) (-1) 1,
    -- 1059: x213 = np.zeros((nocc[1], nocc[1]), dtype=types[float])
    .zeros 338 [4, 4],
    -- 1060: x213 += einsum("ia,jika->jk", t1.bb, x202)
    .add 338 (.ein [(17, [0, 1]), (337, [2, 0, 3, 1])] [2, 3]) 1 1,
    -- 1061: x214 = np.zeros((nocc[1], nocc[1]), dtype=types[float])
    .zeros 339 [4, 4],
    -- 1062: x214 += einsum("ij->ij", x213) * -1
    .add 339 (.ein [(338, [0, 1])] [0, 1]) (-1) 1,
    -- 1063: del x213
    .del 338,
    -- 1064: x203 = np.zeros((nocc[1], nocc[1], nvir[1], nvir[1]), dtype=types[float])
    .zeros 340 [4, 4, 5, 5],
    -- 1065: x203 += einsum("ijab->jiab", t2.bbbb)
    .add 340 (.ein [(20, [0, 1, 2, 3])] [1, 0, 2, 3]) 1 1,
    -- 1066: x203 += einsum("ijab->jiba", t2.bbbb) * -1
    .add 340 (.ein [(20, [0, 1, 2, 3])] [1, 0, 3, 2]) (-1) 1,
    -- 1067: x204 = np.zeros((nocc[1], nocc[1], nocc[1], nvir[1]), dtype=types[float])
    .zeros 341 [4, 4, 4, 5],
    -- 1068: x204 += einsum("ijka,jlab->iklb", x202, x203)
    .add 341 (.ein [(337, [0, 1, 2, 3]), (340, [1, 4, 3, 5])] [0, 2, 4, 5]) 1 1,
    -- 1069: del x202
    .del 337,
    -- 1070: del x203
    .del 340,
    -- 1071: x205 += einsum("ijka->kija", x204)
    .add 127 (.ein [(341, [0, 1, 2, 3])] [2, 0, 1, 3]) 1 1,
    -- 1072: del x204
    .del 341,
    -- 1073: x206 = np.zeros((nocc[1], nocc[1], nvir[1], nvir[1]), dtype=types[float])
    .zeros 342 [4, 4, 5, 5],
    -- 1074: x206 += einsum("ia,jikb->jkab", t1.bb, x205)
    .add 342 (.ein [(17, [0, 1]), (127, [2, 0, 3, 4])] [2, 3, 1, 4]) 1 1,
    -- 1075: del x205
    .del 127,
    -- 1076: x219 += einsum("ijab->ijab", x206)
    .add 197 (.ein [(342, [0, 1, 2, 3])] [0, 1, 2, 3]) 1 1,
    -- 1077: del x206
    .del 342,
    -- 1078: x207 = np.zeros((nocc[1], nocc[1], nvir[1], nvir[1]), dtype=types[float])
    .zeros 343 [4, 4, 5, 5],
    -- 1079: x207 += einsum("iajb->jiab", v.bbbb.ovov)
    .add 343 (.ein [(21, [0, 1, 2, 3])] [2, 0, 1, 3]) 1 1,
    -- 1080: x207 += einsum("iajb->jiba", v.bbbb.ovov) * -1
    .add 343 (.ein [(21, [0, 1, 2, 3])] [2, 0, 3, 1]) (-1) 1,
    -- 1081: x208 = np.zeros((nvir[1], nvir[1]), dtype=types[float])
    .zeros 344 [5, 5],
    -- 1082: x208 += einsum("ijab,ijac->bc", t2.bbbb, x207)
    .add 344 (.ein [(20, [0, 1, 2, 3]), (343, [0, 1, 2, 4])] [3, 4]) 1 1,
    -- 1083: x210 += einsum("ab->ab", x208) * -1
    .add 186 (.ein [(344, [0, 1])] [0, 1]) (-1) 1,
    -- 1084: del x208
    .del 344,
    -- 1085: x211 = np.zeros((nocc[1], nocc[1], nvir[1], nvir[1]), dtype=types[float])
    .zeros 345 [4, 4, 5, 5],
    -- 1086: x211 += einsum("ab,ijbc->ijca", x210, t2.bbbb)
    .add 345 (.ein [(186, [0, 1]), (20, [2, 3, 1, 4])] [2, 3, 4, 0]) 1 1,
    -- 1087: del x210
    .del 186,
    -- 1088: x219 += einsum("ijab->jiab", x211)
    .add 197 (.ein [(345, [0, 1, 2, 3])] [1, 0, 2, 3]) 1 1,
    -- 1089: del x211
    .del 345,
    -- 1090: x212 = np.zeros((nocc[1], nocc[1]), dtype=types[float])
    .zeros 346 [4, 4],
    -- 1091: x212 += einsum("ijab,ikba->jk", t2.bbbb, x207)
    .add 346 (.ein [(20, [0, 1, 2, 3]), (343, [0, 4, 3, 2])] [1, 4]) 1 1,
    -- 1092: x214 += einsum("ij->ji", x212) * -1
    .add 339 (.ein [(346, [0, 1])] [1, 0]) (-1) 1,
    -- 1093: del x212
    .del 346,
    -- 1094: x215 = np.zeros((nocc[1], nocc[1], nvir[1], nvir[1]), dtype=types[float])
    .zeros 347 [4, 4, 5, 5],
    -- 1095: x215 += einsum("ij,ikab->jkab", x214, t2.bbbb)
    .add 347 (.ein [(339, [0, 1]), (20, [0, 2, 3, 4])] [1, 2, 3, 4]) 1 1,
    -- 1096: del x214
    .del 339,
    -- 1097: x219 += einsum("ijab->jiba", x215) * -1
    .add 197 (.ein [(347, [0, 1, 2, 3])] [1, 0, 3, 2]) (-1) 1,
    -- 1098: del x215
    .del 347,
    -- 1099: t2new_bbbb += einsum("ijab->ijab", x219) * -1
    .add 272 (.ein [(197, [0, 1, 2, 3])] [0, 1, 2, 3]) (-1) 1,
    -- 1100: t2new_bbbb += einsum("ijab->ijba", x219)
    .add 272 (.ein [(197, [0, 1, 2, 3])] [0, 1, 3, 2]) 1 1,
    -- 1101: t2new_bbbb += einsum("ijab->jiab", x219)
    .add 272 (.ein [(197, [0, 1, 2, 3])] [1, 0, 2, 3]) 1 1,
    -- 1102: t2new_bbbb += einsum("ijab->jiba", x219) * -1
    .add 272 (.ein [(197, [0, 1, 2, 3])] [1, 0, 3, 2]) (-1) 1,
    -- 1103: del x219
    .del 197,
    -- 1104: x276 = np.zeros((nvir[1], nvir[1]), dtype=types[float])
    .zeros 348 [5, 5],
    -- 1105: x276 += einsum("ijab,ijca->bc", t2.bbbb, x207)
    .add 348 (.ein [(20, [0, 1, 2, 3]), (343, [0, 1, 4, 2])] [3, 4]) 1 1,
    -- 1106: del x207
    .del 343,
    -- 1107: x277 += einsum("ab->ab", x276) * -1
    .add 223 (.ein [(348, [0, 1])] [0, 1]) (-1) 1,
    -- 1108: x327 += einsum("ab->ab", x276) * -1
    .add 133 (.ein [(348, [0, 1])] [0, 1]) (-1) 1,
    -- 1109: del x276
    .del 348,
    -- 1110: x220 = np.zeros((nocc[1], nvir[1], nvir[1], nvir[1]), dtype=types[float])
    .zeros 349 [4, 5, 5, 5],
    -- 1111: x220 += einsum("ia,bcda->ibdc", t1.bb, v.bbbb.vvvv)
    .add 349 (.ein [(17, [0, 1]), (47, [2, 3, 4, 1])] [0, 2, 4, 3]) 1 1,
    -- 1112: x221 = np.zeros((nocc[1], nocc[1], nvir[1], nvir[1]), dtype=types[float])
    .zeros 350 [4, 4, 5, 5],
    -- 1113: x221 += einsum("ia,jbca->ijbc", t1.bb, x220)
    .add 350 (.ein [(17, [0, 1]), (349, [2, 3, 4, 1])] [0, 2, 3, 4]) 1 1,
    -- 1114: del x220
    .del 349,
    -- 1115: x228 = np.zeros((nocc[1], nocc[1], nvir[1], nvir[1]), dtype=types[float])
    .zeros 351 [4, 4, 5, 5],
    -- 1116: x228 += einsum("ijab->ijab", x221)
    .add 351 (.ein [(350, [0, 1, 2, 3])] [0, 1, 2, 3]) 1 1,
    -- 1117: del x221
    .del 350,
    -- 1118: x222 = np.zeros((nocc[1], nocc[1], nocc[1], nocc[1]), dtype=types[float])
    .zeros 352 [4, 4, 4, 4],
    -- 1119: x222 += einsum("ijab,kbla->ijlk", t2.bbbb, v.bbbb.ovov)
    .add 352 (.ein [(20, [0, 1, 2, 3]), (21, [4, 3, 5, 2])] [0, 1, 5, 4]) 1 1,
    -- 1120: x223 += einsum("ijkl->jilk", x222)
    .add 182 (.ein [(352, [0, 1, 2, 3])] [1, 0, 3, 2]) 1 1,
    -- 1121: x224 = np.zeros((nocc[1], nocc[1], nvir[1], nvir[1]), dtype=types[float])
    .zeros 353 [4, 4, 5, 5],
    -- 1122: x224 += einsum("ijab,klji->klab", t2.bbbb, x223)
    .add 353 (.ein [(20, [0, 1, 2, 3]), (182, [4, 5, 1, 0])] [4, 5, 2, 3]) 1 1,
    -- 1123: del x223
    .del 182,
    -- 1124: x228 += einsum("ijab->jiab", x224)
    .add 351 (.ein [(353, [0, 1, 2, 3])] [1, 0, 2, 3]) 1 1,
    -- 1125: del x224
    .del 353,
    -- 1126: x225 = np.zeros((nocc[1], nocc[1], nocc[1], nocc[1]), dtype=types[float])
    .zeros 354 [4, 4, 4, 4],
    -- 1127: x225 += einsum("ijkl->lkji", x222)
    .add 354 (.ein [(352, [0, 1, 2, 3])] [3, 2, 1, 0]) 1 1,
    -- 1128: del x222
    .del 352,
    -- 1129: x225 += einsum("ijkl->kilj", v.bbbb.oooo)
    .add 354 (.ein [(48, [0, 1, 2, 3])] [2, 0, 3, 1]) 1 1,
    -- 1130: x226 = np.zeros((nocc[1], nocc[1], nocc[1], nvir[1]), dtype=types[float])
    .zeros 355 [4, 4, 4, 5],
    -- 1131: x226 += einsum("ia,ijkl->jkla", t1.bb, x225)
    .add 355 (.ein [(17, [0, 1]), (354, [0, 2, 3, 4])] [2, 3, 4, 1]) 1 1,
    -- 1132: del x225
    .del 354,
    -- 1133: x227 = np.zeros((nocc[1], nocc[1], nvir[1], nvir[1]), dtype=types[float])
    .zeros 356 [4, 4, 5, 5],
    -- 1134: x227 += einsum("ia,ijkb->kjba", t1.bb, x226)
    .add 356 (.ein [(17, [0, 1]), (355, [0, 2, 3, 4])] [3, 2, 4, 1]) 1 1,
    -- 1135: del x226
    .del 355,
    -- 1136: x228 += einsum("ijab->jiab", x227)
    .add 351 (.ein [(356, [0, 1, 2, 3])] [1, 0, 2, 3]) 1 1,
    -- 1137: del x227
    .del 356,
    -- 1138: t2new_bbbb += einsum("ijab->ijab", x228)
    .add 272 (.ein [(351, [0, 1, 2, 3])] [0, 1, 2, 3]) 1 1,
    -- 1139: t2new_bbbb += einsum("ijab->ijba", x228) * -1
    .add 272 (.ein [(351, [0, 1, 2, 3])] [0, 1, 3, 2]) (-1) 1,
    -- 1140: del x228
    .del 351,
    -- 1141: x231 = np.zeros((nocc[1], nocc[1], nvir[1], nvir[1]), dtype=types[float])
    .zeros 357 [4, 4, 5, 5],
    -- 1142: x231 += einsum("ijab,ikjl->lkba", t2.bbbb, v.bbbb.oooo)
    .add 357 (.ein [(20, [0, 1, 2, 3]), (48, [0, 4, 1, 5])] [5, 4, 3, 2]) 1 1,
    -- 1143: x233 = np.zeros((nocc[1], nocc[1], nvir[1], nvir[1]), dtype=types[float])
    .zeros 358 [4, 4, 5, 5],
    -- 1144: x233 += einsum("ijab->jiba", x231)
    .add 358 (.ein [(357, [0, 1, 2, 3])] [1, 0, 3, 2]) 1 1,
    -- 1145: del x231
    .del 357,
    -- 1146: x232 = np.zeros((nocc[1], nocc[1], nvir[1], nvir[1]), dtype=types[float])
    .zeros 359 [4, 4, 5, 5],
    -- 1147: x232 += einsum("ijab,cadb->ijcd", t2.bbbb, v.bbbb.vvvv)
    .add 359 (.ein [(20, [0, 1, 2, 3]), (47, [4, 2, 5, 3])] [0, 1, 4, 5]) 1 1,
    -- 1148: x233 += einsum("ijab->jiba", x232)
    .add 358 (.ein [(359, [0, 1, 2, 3])] [1, 0, 3, 2]) 1 1,
    -- 1149: del x232
    .del 359,
    -- 1150: t2new_bbbb += einsum("ijab->ijba", x233) * -1
    .add 272 (.ein [(358, [0, 1, 2, 3])] [0, 1, 3, 2]) (-1) 1,
    -- 1151: t2new_bbbb += einsum("ijab->ijab", x233)
    .add 272 (.ein [(358, [0, 1, 2, 3])] [0, 1, 2, 3]) 1 1,
    -- 1152: del x233
    .del 358,
    -- 1153: x234 = np.zeros((nocc[0], nocc[1], nvir[0], nvir[1]), dtype=types[float])
    .zeros 360 [0, 4, 1, 5],
    -- 1154: x234 += einsum("ia,bacj->ijbc", t1.aa, v.aabb.vvvo)
    .add 360 (.ein [(8, [0, 1]), (49, [2, 1, 3, 4])] [0, 4, 2, 3]) 1 1,
    -- 1155: t2new_baba += einsum("ijab->jiba", x234)
    .add 165 (.ein [(360, [0, 1, 2, 3])] [1, 0, 3, 2]) 1 1,
    -- 1156: t2new_abab += einsum("ijab->ijab", x234)
    .add 166 (.ein [(360, [0, 1, 2, 3])] [0, 1, 2, 3]) 1 1,
    -- 1157: del x234
    .del 360,
    -- 1158: x235 = np.zeros((nocc[0], nocc[1], nvir[0], nvir[1]), dtype=types[float])
    .zeros 361 [0, 4, 1, 5],
    -- 1159: x235 += einsum("ijab,cadb->ijcd", t2.abab, v.aabb.vvvv)
    .add 361 (.ein [(14, [0, 1, 2, 3]), (50, [4, 2, 5, 3])] [0, 1, 4, 5]) 1 1,
    -- 1160: t2new_baba += einsum("ijab->jiba", x235)
    .add 165 (.ein [(361, [0, 1, 2, 3])] [1, 0, 3, 2]) 1 1,
    -- 1161: t2new_abab += einsum("ijab->ijab", x235)
    .add 166 (.ein [(361, [0, 1, 2, 3])] [0, 1, 2, 3]) 1 1,
    -- 1162: del x235
    .del 361,
    -- 1163: x238 += einsum("iabj->jiba", v.bbaa.ovvo)
    .add 137 (.ein [(40, [0, 1, 2, 3])] [3, 0, 2, 1]) 1 1,
    -- 1164: t2new_baba += einsum("ijab,kicb->jkac", x156, x238)
    .add 165 (.ein [(316, [0, 1, 2, 3]), (137, [4, 0, 5, 3])] [1, 4, 2, 5]) 1 1,
    -- 1165: del x156
    .del 316,
    -- 1166: t2new_abab += einsum("ijab,jkcb->ikac", x238, x41) * -1
    .add 166 (.ein [(137, [0, 1, 2, 3]), (194, [1, 4, 5, 3])] [0, 4, 2, 5]) (-1) 1,
    -- 1167: del x238
    .del 137,
    -- 1168: x241 += einsum("iabj->ijba", v.aaaa.ovvo)
    .add 237 (.ein [(24, [0, 1, 2, 3])] [0, 3, 2, 1]) 1 1,
    -- 1169: x241 += einsum("ijab->ijab", v.aaaa.oovv) * -1
    .add 237 (.ein [(25, [0, 1, 2, 3])] [0, 1, 2, 3]) (-1) 1,
    -- 1170: x242 = np.zeros((nocc[0], nocc[1], nvir[0], nvir[1]), dtype=types[float])
    .zeros 362 [0, 4, 1, 5],
    -- 1171: x242 += einsum("ijab,ikca->kjcb", t2.abab, x241)
    .add 362 (.ein [(14, [0, 1, 2, 3]), (237, [0, 4, 5, 2])] [4, 1, 5, 3]) 1 1,
    -- 1172: del x241
    .del 237,
    -- 1173: t2new_baba += einsum("ijab->jiba", x242)
    .add 165 (.ein [(362, [0, 1, 2, 3])] [1, 0, 3, 2]) 1 1,
    -- 1174: t2new_abab += einsum("ijab->ijab", x242)
    .add 166 (.ein [(362, [0, 1, 2, 3])] [0, 1, 2, 3]) 1 1,
    -- 1175: del x242
    .del 362,
    -- 1176: x243 += einsum("iabj->ijab", v.aabb.ovvo)
    .add 310 (.ein [(45, [0, 1, 2, 3])] [0, 3, 1, 2]) 1 1,
    -- 1177: x244 = np.zeros((nocc[0], nocc[1], nvir[0], nvir[1]), dtype=types[float])
    .zeros 363 [0, 4, 1, 5],
    -- 1178: x244 += einsum("ijab,ikac->jkbc", x10, x243)
    .add 363 (.ein [(117, [0, 1, 2, 3]), (310, [0, 4, 2, 5])] [1, 4, 3, 5]) 1 1,
    -- 1179: del x243
    .del 310,
    -- 1180: t2new_baba -= einsum("ijab->jiba", x244)
    .add 165 (.ein [(363, [0, 1, 2, 3])] [1, 0, 3, 2]) (-1) 1,
    -- 1181: t2new_abab -= einsum("ijab->ijab", x244)
    .add 166 (.ein [(363, [0, 1, 2, 3])] [0, 1, 2, 3]) (-1) 1,
    -- 1182: del x244
    .del 363,
    -- 1183: x245 = np.zeros((nocc[1], nvir[1], nvir[1], nvir[1]), dtype=types[float])
    .zeros 364 [4, 5, 5, 5],
    -- 1184: x245 += einsum("iabc->ibac", v.bbbb.ovvv)
    .add 364 (.ein [(32, [0, 1, 2, 3])] [0, 2, 1, 3]) 1 1,
    -- 1185: x245 -= einsum("iabc->ibca", v.bbbb.ovvv)
    .add 364 (.ein [(32, [0, 1, 2, 3])] [0, 2, 3, 1]) (-1) 1,
    -- 1186: x246 = np.zeros((nocc[1], nocc[1], nvir[1], nvir[1]), dtype=types[float])
    .zeros 365 [4, 4, 5, 5],
    -- 1187: x246 += einsum("ia,jbac->jibc", t1.bb, x245)
    .add 365 (.ein [(17, [0, 1]), (364, [2, 3, 1, 4])] [2, 0, 3, 4]) 1 1,
    -- 1188: del x245
    .del 364,
    -- 1189: x247 = np.zeros((nocc[1], nocc[1], nvir[1], nvir[1]), dtype=types[float])
    .zeros 366 [4, 4, 5, 5],
    -- 1190: x247 -= einsum("ijab->ijab", x246)
    .add 366 (.ein [(365, [0, 1, 2, 3])] [0, 1, 2, 3]) (-1) 1,
    -- 1191: del x246
    .del 365,
    -- 1192: x247 += einsum("iabj->ijba", v.bbbb.ovvo)
    .add 366 (.ein [(34, [0, 1, 2, 3])] [0, 3, 2, 1]) 1 1,
    -- 1193: x247 -= einsum("ijab->ijab", v.bbbb.oovv)
    .add 366 (.ein [(35, [0, 1, 2, 3])] [0, 1, 2, 3]) (-1) 1,
    -- 1194: x248 = np.zeros((nocc[0], nocc[1], nvir[0], nvir[1]), dtype=types[float])
    .zeros 367 [0, 4, 1, 5],
    -- 1195: x248 += einsum("ijab,jkcb->ikac", t2.abab, x247)
    .add 367 (.ein [(14, [0, 1, 2, 3]), (366, [1, 4, 5, 3])] [0, 4, 2, 5]) 1 1,
    -- 1196: del x247
    .del 366,
    -- 1197: t2new_baba += einsum("ijab->jiba", x248)
    .add 165 (.ein [(367, [0, 1, 2, 3])] [1, 0, 3, 2]) 1 1,
    -- 1198: t2new_abab += einsum("ijab->ijab", x248)
    .add 166 (.ein [(367, [0, 1, 2, 3])] [0, 1, 2, 3]) 1 1,
    -- 1199: del x248
    .del 367,
    -- 1200: x249 = np.zeros((nocc[0], nocc[0], nvir[1], nvir[1]), dtype=types[float])
    .zeros 368 [0, 0, 5, 5],
    -- 1201: x249 += einsum("ia,jabc->ijbc", t1.aa, v.aabb.ovvv)
    .add 368 (.ein [(8, [0, 1]), (37, [2, 1, 3, 4])] [0, 2, 3, 4]) 1 1,
    -- 1202: x251 = np.zeros((nocc[0], nocc[0], nvir[1], nvir[1]), dtype=types[float])
    .zeros 369 [0, 0, 5, 5],
    -- 1203: x251 += einsum("ijab->jiab", x249)
    .add 369 (.ein [(368, [0, 1, 2, 3])] [1, 0, 2, 3]) 1 1,
    -- 1204: del x249
    .del 368,
    -- 1205: x250 = np.zeros((nocc[0], nocc[0], nvir[1], nvir[1]), dtype=types[float])
    .zeros 370 [0, 0, 5, 5],
    -- 1206: x250 += einsum("ijab,kajc->ikbc", t2.abab, v.aabb.ovov)
    .add 370 (.ein [(14, [0, 1, 2, 3]), (13, [4, 2, 1, 5])] [0, 4, 3, 5]) 1 1,
    -- 1207: x251 -= einsum("ijab->jiab", x250)
    .add 369 (.ein [(370, [0, 1, 2, 3])] [1, 0, 2, 3]) (-1) 1,
    -- 1208: del x250
    .del 370,
    -- 1209: x251 += einsum("ijab->ijab", v.aabb.oovv)
    .add 369 (.ein [(51, [0, 1, 2, 3])] [0, 1, 2, 3]) 1 1,
    -- 1210: x252 = np.zeros((nocc[0], nocc[1], nvir[0], nvir[1]), dtype=types[float])
    .zeros 371 [0, 4, 1, 5],
    -- 1211: x252 += einsum("ijab,ikcb->kjac", t2.abab, x251)
    .add 371 (.ein [(14, [0, 1, 2, 3]), (369, [0, 4, 5, 3])] [4, 1, 2, 5]) 1 1,
    -- 1212: del x251
    .del 369,
    -- 1213: t2new_baba -= einsum("ijab->jiba", x252)
    .add 165 (.ein [(371, [0, 1, 2, 3])] [1, 0, 3, 2]) (-1) 1,
    -- 1214: t2new_abab -= einsum("ijab->ijab", x252)
    .add 166 (.ein [(371, [0, 1, 2, 3])] [0, 1, 2, 3]) (-1) 1,
    -- 1215: del x252
    .del 371,
    -- 1216: x253 = np.zeros((nocc[0], nocc[0], nocc[1], nocc[1]), dtype=types[float])
    .zeros 372 [0, 0, 4, 4],
    -- 1217: x253 += einsum("ia,jkla->jkil", t1.bb, v.aabb.ooov)
    .add 372 (.ein [(17, [0, 1]), (15, [2, 3, 4, 1])] [2, 3, 0, 4]) 1 1,
    -- 1218: x257 = np.zeros((nocc[0], nocc[0], nocc[1], nocc[1]), dtype=types[float])
    .zeros 373 [0, 0, 4, 4],
    -- 1219: x257 += einsum("ijkl->ijlk", x253)
    .add 373 (.ein [(372, [0, 1, 2, 3])] [0, 1, 3, 2]) 1 1,
    -- 1220: x270 += einsum("ijkl->ijlk", x253)
    .add 192 (.ein [(372, [0, 1, 2, 3])] [0, 1, 3, 2]) 1 1,
    -- 1221: del x253
    .del 372,
    -- 1222: x254 = np.zeros((nocc[0], nocc[0], nocc[1], nocc[1]), dtype=types[float])
    .zeros 374 [0, 0, 4, 4],
    -- 1223: x254 += einsum("ijab,kalb->ikjl", t2.abab, v.aabb.ovov)
    .add 374 (.ein [(14, [0, 1, 2, 3]), (13, [4, 2, 5, 3])] [0, 4, 1, 5]) 1 1,
    -- 1224: x257 += einsum("ijkl->jilk", x254)
    .add 373 (.ein [(374, [0, 1, 2, 3])] [1, 0, 3, 2]) 1 1,
    -- 1225: x270 += einsum("ijkl->jilk", x254)
    .add 192 (.ein [(374, [0, 1, 2, 3])] [1, 0, 3, 2]) 1 1,
    -- 1226: del x254
    .del 374,
    -- 1227: x255 += einsum("iajk->ijka", v.aabb.ovoo)
    .add 190 (.ein [(33, [0, 1, 2, 3])] [0, 2, 3, 1]) 1 1,
    -- 1228: x256 = np.zeros((nocc[0], nocc[0], nocc[1], nocc[1]), dtype=types[float])
    .zeros 375 [0, 0, 4, 4],
    -- 1229: x256 += einsum("ia,jkla->jikl", t1.aa, x255)
    .add 375 (.ein [(8, [0, 1]), (190, [2, 3, 4, 1])] [2, 0, 3, 4]) 1 1,
    -- 1230: del x255
    .del 190,
    -- 1231: x257 += einsum("ijkl->ijkl", x256)
    .add 373 (.ein [(375, [0, 1, 2, 3])] [0, 1, 2, 3]) 1 1,
    -- 1232: del x256
    .del 375,
    -- 1233: x257 += einsum("ijkl->ijkl", v.aabb.oooo)
    .add 373 (.ein [(52, [0, 1, 2, 3])] [0, 1, 2, 3]) 1 1,
    -- 1234: x258 = np.zeros((nocc[0], nocc[1], nvir[0], nvir[1]), dtype=types[float])
    .zeros 376 [0, 4, 1, 5],
    -- 1235: x258 += einsum("ijab,ikjl->klab", t2.abab, x257)
    .add 376 (.ein [(14, [0, 1, 2, 3]), (373, [0, 4, 1, 5])] [4, 5, 2, 3]) 1 1,
    -- 1236: del x257
    .del 373,
    -- 1237: t2new_baba += einsum("ijab->jiba", x258)
    .add 165 (.ein [(376, [0, 1, 2, 3])] [1, 0, 3, 2]) 1 1,
    -- 1238: t2new_abab += einsum("ijab->ijab", x258)
    .add 166 (.ein [(376, [0, 1, 2, 3])] [0, 1, 2, 3]) 1 1,
    -- 1239: del x258
    .del 376,
    -- 1240: x259 = np.zeros((nocc[1], nocc[1], nvir[0], nvir[0]), dtype=types[float])
    .zeros 377 [4, 4, 1, 1],
    -- 1241: x259 += einsum("ia,jabc->ijbc", t1.bb, v.bbaa.ovvv)
    .add 377 (.ein [(17, [0, 1]), (27, [2, 1, 3, 4])] [0, 2, 3, 4]) 1 1,
    -- 1242: x260 = np.zeros((nocc[1], nocc[1], nvir[0], nvir[0]), dtype=types[float])
    .zeros 378 [4, 4, 1, 1],
    -- 1243: x260 += einsum("ijab->jiab", x259)
    .add 378 (.ein [(377, [0, 1, 2, 3])] [1, 0, 2, 3]) 1 1,
    -- 1244: x272 = np.zeros((nocc[1], nocc[1], nvir[0], nvir[0]), dtype=types[float])
    .zeros 379 [4, 4, 1, 1],
    -- 1245: x272 += einsum("ijab->jiab", x259)
    .add 379 (.ein [(377, [0, 1, 2, 3])] [1, 0, 2, 3]) 1 1,
    -- 1246: del x259
    .del 377,
    -- 1247: x260 += einsum("ijab->ijab", v.bbaa.oovv)
    .add 378 (.ein [(53, [0, 1, 2, 3])] [0, 1, 2, 3]) 1 1,
    -- 1248: x261 = np.zeros((nocc[0], nocc[1], nvir[0], nvir[1]), dtype=types[float])
    .zeros 380 [0, 4, 1, 5],
    -- 1249: x261 += einsum("ijab,jkca->ikcb", t2.abab, x260)
    .add 380 (.ein [(14, [0, 1, 2, 3]), (378, [1, 4, 5, 2])] [0, 4, 5, 3]) 1 1,
    -- 1250: del x260
    .del 378,
    -- 1251: t2new_baba -= einsum("ijab->jiba", x261)
    .add 165 (.ein [(380, [0, 1, 2, 3])] [1, 0, 3, 2]) (-1) 1,
    -- 1252: t2new_abab -= einsum("ijab->ijab", x261)
    .add 166 (.ein [(380, [0, 1, 2, 3])] [0, 1, 2, 3]) (-1) 1,
    -- 1253: del x261
    .del 380,
    -- 1254: x262 = np.zeros((nocc[0], nocc[1], nocc[1], nvir[0]), dtype=types[float])
    .zeros 381 [0, 4, 4, 1],
    -- 1255: x262 += einsum("ia,jabk->kijb", t1.bb, v.bbaa.ovvo)
    .add 381 (.ein [(17, [0, 1]), (40, [2, 1, 3, 4])] [4, 0, 2, 3]) 1 1,
    -- 1256: x274 += einsum("ijka->ikja", x262)
    .add 93 (.ein [(381, [0, 1, 2, 3])] [0, 2, 1, 3]) 1 1,
    -- 1257: del x262
    .del 381,
    -- 1258: x263 = np.zeros((nocc[0], nocc[1], nocc[1], nvir[0]), dtype=types[float])
    .zeros 382 [0, 4, 4, 1],
    -- 1259: x263 += einsum("ijab,kbca->ijkc", t2.abab, v.bbaa.ovvv)
    .add 382 (.ein [(14, [0, 1, 2, 3]), (27, [4, 3, 5, 2])] [0, 1, 4, 5]) 1 1,
    -- 1260: x274 += einsum("ijka->ikja", x263)
    .add 93 (.ein [(382, [0, 1, 2, 3])] [0, 2, 1, 3]) 1 1,
    -- 1261: del x263
    .del 382,
    -- 1262: x264 += einsum("ijka->ikja", v.bbbb.ooov) * -1
    .add 183 (.ein [(31, [0, 1, 2, 3])] [0, 2, 1, 3]) (-1) 1,
    -- 1263: x264 += einsum("ijka->kija", v.bbbb.ooov)
    .add 183 (.ein [(31, [0, 1, 2, 3])] [2, 0, 1, 3]) 1 1,
    -- 1264: x265 = np.zeros((nocc[0], nocc[1], nocc[1], nvir[0]), dtype=types[float])
    .zeros 383 [0, 4, 4, 1],
    -- 1265: x265 += einsum("ijab,kjlb->ikla", t2.abab, x264)
    .add 383 (.ein [(14, [0, 1, 2, 3]), (183, [4, 1, 5, 3])] [0, 4, 5, 2]) 1 1,
    -- 1266: del x264
    .del 183,
    -- 1267: x274 += einsum("ijka->ijka", x265) * -1
    .add 93 (.ein [(383, [0, 1, 2, 3])] [0, 1, 2, 3]) (-1) 1,
    -- 1268: del x265
    .del 383,
    -- 1269: x270 += einsum("ijkl->ijkl", v.aabb.oooo)
    .add 192 (.ein [(52, [0, 1, 2, 3])] [0, 1, 2, 3]) 1 1,
    -- 1270: x271 = np.zeros((nocc[0], nocc[1], nocc[1], nvir[0]), dtype=types[float])
    .zeros 384 [0, 4, 4, 1],
    -- 1271: x271 += einsum("ia,ijkl->jkla", t1.aa, x270)
    .add 384 (.ein [(8, [0, 1]), (192, [0, 2, 3, 4])] [2, 3, 4, 1]) 1 1,
    -- 1272: del x270
    .del 192,
    -- 1273: x274 += einsum("ijka->ijka", x271) * -1
    .add 93 (.ein [(384, [0, 1, 2, 3])] [0, 1, 2, 3]) (-1) 1,
    -- 1274: del x271
    .del 384,
    -- 1275: x272 += einsum("ijab->ijab", v.bbaa.oovv)
    .add 379 (.ein [(53, [0, 1, 2, 3])] [0, 1, 2, 3]) 1 1,
    -- 1276: x273 = np.zeros((nocc[0], nocc[1], nocc[1], nvir[0]), dtype=types[float])
    .zeros 385 [0, 4, 4, 1],
    -- 1277: x273 += einsum("ia,jkba->ijkb", t1.aa, x272)
    .add 385 (.ein [(8, [0, 1]), (379, [2, 3, 4, 1])] [0, 2, 3, 4]) 1 1,
    -- 1278: del x272
    .del 379,
    -- 1279: x274 += einsum("ijka->ijka", x273)
    .add 93 (.ein [(385, [0, 1, 2, 3])] [0, 1, 2, 3]) 1 1,
    -- 1280: del x273
    .del 385,
    -- 1281: x274 += einsum("ijak->kija", v.bbaa.oovo)
    .add 93 (.ein [(54, [0, 1, 2, 3])] [3, 0, 1, 2]) 1 1,
    -- 1282: x275 = np.zeros((nocc[0], nocc[1], nvir[0], nvir[1]), dtype=types[float])
    .zeros 386 [0, 4, 1, 5],
    -- 1283: x275 += einsum("ia,jikb->jkba", t1.bb, x274)
    .add 386 (.ein [(17, [0, 1]), (93, [2, 0, 3, 4])] [2, 3, 4, 1]) 1 1,
    -- 1284: del x274
    .del 93,
    -- 1285: t2new_baba += einsum("ijab->jiba", x275) * -1
    .add 165 (.ein [(386, [0, 1, 2, 3])] [1, 0, 3, 2]) (-1) 1,
    -- 1286: t2new_abab += einsum("ijab->ijab", x275) * -1
    .add 166 (.ein [(386, [0, 1, 2, 3])] [0, 1, 2, 3]) (-1) 1,
    -- 1287: del x275
    .del 386,
    -- 1288: x277 += einsum("ab->ab", f.bb.vv)
    .add 223 (.ein [(38, [0, 1])] [0, 1]) 1 1,
    -- 1289: x278 = np.zeros((nocc[0], nocc[1], nvir[0], nvir[1]), dtype=types[float])
    .zeros 387 [0, 4, 1, 5],
    -- 1290: x278 += einsum("ab,ijcb->ijca", x277, t2.abab)
    .add 387 (.ein [(223, [0, 1]), (14, [2, 3, 4, 1])] [2, 3, 4, 0]) 1 1,
    -- 1291: del x277
    .del 223,
    -- 1292: t2new_baba += einsum("ijab->jiba", x278)
    .add 165 (.ein [(387, [0, 1, 2, 3])] [1, 0, 3, 2]) 1 1,
    -- 1293: t2new_abab += einsum("ijab->ijab", x278)
    .add 166 (.ein [(387, [0, 1, 2, 3])] [0, 1, 2, 3]) 1 1,
    -- 1294: del x278
    .del 387,
    -- 1295: x280 += einsum("ab->ab", f.aa.vv)
    .add 85 (.ein [(28, [0, 1])] [0, 1]) 1 1,
    -- 1296: x281 = np.zeros((nocc[0], nocc[1], nvir[0], nvir[1]), dtype=types[float])
    .zeros 388 [0, 4, 1, 5],
    -- 1297: x281 += einsum("ab,ijbc->ijac", x280, t2.abab)
    .add 388 (.ein [(85, [0, 1]), (14, [2, 3, 1, 4])] [2, 3, 0, 4]) 1 1,
    -- 1298: del x280
    .del 85,
    -- 1299: t2new_baba += einsum("ijab->jiba", x281)
    .add 165 (.ein [(388, [0, 1, 2, 3])] [1, 0, 3, 2]) 1 1,
    -- 1300: t2new_abab += einsum("ijab->ijab", x281)
    .add 166 (.ein [(388, [0, 1, 2, 3])] [0, 1, 2, 3]) 1 1,
    -- 1301: del x281
    .del 388,
    -- 1302: x282 = np.zeros((nocc[0], nocc[0], nocc[1], nvir[1]), dtype=types[float])
    .zeros 389 [0, 0, 4, 5],
    -- 1303: x282 += einsum("ia,jkba->jkib", t1.bb, v.aabb.oovv)
    .add 389 (.ein [(17, [0, 1]), (51, [2, 3, 4, 1])] [2, 3, 0, 4]) 1 1,
    -- 1304: x291 += einsum("ijka->ijka", x282)
    .add 115 (.ein [(389, [0, 1, 2, 3])] [0, 1, 2, 3]) 1 1,
    -- 1305: del x282
    .del 389,
    -- 1306: x283 = np.zeros((nocc[0], nocc[0], nocc[1], nvir[1]), dtype=types[float])
    .zeros 390 [0, 0, 4, 5],
    -- 1307: x283 += einsum("ijab,kacb->ikjc", t2.abab, v.aabb.ovvv)
    .add 390 (.ein [(14, [0, 1, 2, 3]), (37, [4, 2, 5, 3])] [0, 4, 1, 5]) 1 1,
    -- 1308: x291 += einsum("ijka->jika", x283)
    .add 115 (.ein [(390, [0, 1, 2, 3])] [1, 0, 2, 3]) 1 1,
    -- 1309: del x283
    .del 390,
    -- 1310: x284 += einsum("ijka->ikja", v.aaaa.ooov)
    .add 80 (.ein [(11, [0, 1, 2, 3])] [0, 2, 1, 3]) 1 1,
    -- 1311: x284 += einsum("ijka->kija", v.aaaa.ooov) * -1
    .add 80 (.ein [(11, [0, 1, 2, 3])] [2, 0, 1, 3]) (-1) 1,
    -- 1312: x285 = np.zeros((nocc[0], nocc[0], nocc[1], nvir[1]), dtype=types[float])
    .zeros 391 [0, 0, 4, 5],
    -- 1313: x285 += einsum("ijab,ikla->kljb", t2.abab, x284)
    .add 391 (.ein [(14, [0, 1, 2, 3]), (80, [0, 4, 5, 2])] [4, 5, 1, 3]) 1 1,
    -- 1314: del x284
    .del 80,
    -- 1315: x291 += einsum("ijka->ijka", x285) * -1
    .add 115 (.ein [(391, [0, 1, 2, 3])] [0, 1, 2, 3]) (-1) 1,
    -- 1316: del x285
    .del 391,
    -- 1317: x289 += einsum("iabj->ijab", v.aabb.ovvo)
    .add 311 (.ein [(45, [0, 1, 2, 3])] [0, 3, 1, 2]) 1 1,
    -- 1318: x290 = np.zeros((nocc[0], nocc[0], nocc[1], nvir[1]), dtype=types[float])
    .zeros 392 [0, 0, 4, 5],
    -- 1319: x290 += einsum("ia,jkab->jikb", t1.aa, x289)
    .add 392 (.ein [(8, [0, 1]), (311, [2, 3, 1, 4])] [2, 0, 3, 4]) 1 1,
    -- 1320: del x289
    .del 311,
    -- 1321: x291 += einsum("ijka->ijka", x290)
    .add 115 (.ein [(392, [0, 1, 2, 3])] [0, 1, 2, 3]) 1 1,
    -- 1322: del x290
    .del 392,
    -- 1323: x291 += einsum("ijak->ijka", v.aabb.oovo)
    .add 115 (.ein [(55, [0, 1, 2, 3])] [0, 1, 3, 2]) 1 1,
    -- 1324: x292 = np.zeros((nocc[0], nocc[1], nvir[0], nvir[1]), dtype=types[float])
    .zeros 393 [0, 4, 1, 5],
    -- 1325: x292 += einsum("ia,ijkb->jkab", t1.aa, x291)
    .add 393 (.ein [(8, [0, 1]), (115, [0, 2, 3, 4])] [2, 3, 1, 4]) 1 1,
    -- 1326: del x291
    .del 115,
    -- 1327: t2new_baba += einsum("ijab->jiba", x292) * -1
    .add 165 (.ein [(393, [0, 1, 2, 3])] [1, 0, 3, 2]) (-1) 1,
    -- 1328: t2new_abab += einsum("ijab->ijab", x292) * -1
    .add 166 (.ein [(393, [0, 1, 2, 3])] [0, 1, 2, 3]) (-1) 1,
    -- 1329: del x292
    .del 393,
    -- 1330: x297 = np.zeros((nocc[0], nvir[0], nvir[1], nvir[1]), dtype=types[float])
    .zeros 394 [0, 1, 5, 5],
    -- 1331: x297 += einsum("ia,bacd->ibcd", t1.aa, v.aabb.vvvv)
    .add 394 (.ein [(8, [0, 1]), (50, [2, 1, 3, 4])] [0, 2, 3, 4]) 1 1,
    -- 1332: x298 = np.zeros((nocc[0], nvir[0], nvir[1], nvir[1]), dtype=types[float])
    .zeros 395 [0, 1, 5, 5],
    -- 1333: x298 += einsum("iabc->iabc", x297)
    .add 395 (.ein [(394, [0, 1, 2, 3])] [0, 1, 2, 3]) 1 1,
    -- 1334: del x297
    .del 394,
    -- 1335: x298 += einsum("aibc->iabc", v.aabb.vovv)
    .add 395 (.ein [(56, [0, 1, 2, 3])] [1, 0, 2, 3]) 1 1,
    -- 1336: x299 = np.zeros((nocc[0], nocc[1], nvir[0], nvir[1]), dtype=types[float])
    .zeros 396 [0, 4, 1, 5],
    -- 1337: x299 += einsum("ia,jbca->jibc", t1.bb, x298)
    .add 396 (.ein [(17, [0, 1]), (395, [2, 3, 4, 1])] [2, 0, 3, 4]) 1 1,
    -- 1338: del x298
    .del 395,
    -- 1339: t2new_baba += einsum("ijab->jiba", x299)
    .add 165 (.ein [(396, [0, 1, 2, 3])] [1, 0, 3, 2]) 1 1,
    -- 1340: t2new_abab += einsum("ijab->ijab", x299)
    .add 166 (.ein [(396, [0, 1, 2, 3])] [0, 1, 2, 3]) 1 1,
    -- 1341: del x299
    .del 396,
    -- 1342: x300 += einsum("ia->ia", f.aa.ov)
    .add 97 (.ein [(19, [0, 1])] [0, 1]) 1 1,
    -- 1343: s1new += einsum("ia,wia->w", x300, u11.aa)
    .add 174 (.ein [(97, [0, 1]), (18, [2, 0, 1])] [2]) 1 1,
    -- 1344: del x300
    .del 97,
    -- 1345: x301 += einsum("ia->ia", f.bb.ov)
    .add 123 (.ein [(23, [0, 1])] [0, 1]) 1 1,
    -- 1346: s1new += einsum("ia,wia->w", x301, u11.bb)
    .add 174 (.ein [(123, [0, 1]), (22, [2, 0, 1])] [2]) 1 1,
    -- 1347: del x301
    .del 123,
    -- 1348: x302 = np.zeros((nbos, nbos), dtype=types[float])
    .zeros 397 [2, 2],
    -- 1349: x302 += einsum("wia,xia->wx", gc.aa.bov, u11.aa)
    .add 397 (.ein [(64, [0, 1, 2]), (18, [3, 1, 2])] [0, 3]) 1 1,
    -- 1350: x310 = np.zeros((nbos, nbos), dtype=types[float])
    .zeros 398 [2, 2],
    -- 1351: x310 += einsum("wx->wx", x302)
    .add 398 (.ein [(397, [0, 1])] [0, 1]) 1 1,
    -- 1352: del x302
    .del 397,
    -- 1353: x303 = np.zeros((nbos, nocc[1], nvir[1]), dtype=types[float])
    .zeros 399 [2, 4, 5],
    -- 1354: x303 += einsum("wia,iajb->wjb", u11.aa, v.aabb.ovov)
    .add 399 (.ein [(18, [0, 1, 2]), (13, [1, 2, 3, 4])] [0, 3, 4]) 1 1,
    -- 1355: x304 = np.zeros((nbos, nocc[1], nvir[1]), dtype=types[float])
    .zeros 400 [2, 4, 5],
    -- 1356: x304 += einsum("wia->wia", x303)
    .add 400 (.ein [(399, [0, 1, 2])] [0, 1, 2]) 1 1,
    -- 1357: x319 += einsum("wia->wia", x303)
    .add 139 (.ein [(399, [0, 1, 2])] [0, 1, 2]) 1 1,
    -- 1358: del x303
    .del 399,
    -- 1359: x304 += einsum("wia->wia", gc.bb.bov)
    .add 400 (.ein [(68, [0, 1, 2])] [0, 1, 2]) 1 1,
    -- 1360: x305 = np.zeros((nbos, nbos), dtype=types[float])
    .zeros 401 [2, 2],
    -- 1361: x305 += einsum("wia,xia->xw", u11.bb, x304)
    .add 401 (.ein [(22, [0, 1, 2]), (400, [3, 1, 2])] [3, 0]) 1 1,
    -- 1362: del x304
    .del 400,
    -- 1363: x310 += einsum("wx->wx", x305)
    .add 398 (.ein [(401, [0, 1])] [0, 1]) 1 1,
    -- 1364: del x305
    .del 401,
    -- 1365: x306 = np.zeros((nbos, nbos), dtype=types[float])
    .zeros 402 [2, 2],
    -- 1366: x306 += einsum("wia,xia->wx", g.aa.bov, u11.aa)
    .add 402 (.ein [(2, [0, 1, 2]), (18, [3, 1, 2])] [0, 3]) 1 1,
    -- 1367: x308 = np.zeros((nbos, nbos), dtype=types[float])
    .zeros 403 [2, 2],
    -- 1368: x308 += einsum("wx->wx", x306)
    .add 403 (.ein [(402, [0, 1])] [0, 1]) 1 1,
    -- 1369: del x306
    .del 402,
    -- 1370: x307 = np.zeros((nbos, nbos), dtype=types[float])
    .zeros 404 [2, 2],
    -- 1371: x307 += einsum("wia,xia->wx", g.bb.bov, u11.bb)
    .add 404 (.ein [(6, [0, 1, 2]), (22, [3, 1, 2])] [0, 3]) 1 1,
    -- 1372: x308 += einsum("wx->wx", x307)
    .add 403 (.ein [(404, [0, 1])] [0, 1]) 1 1,
    -- 1373: del x307
    .del 404,
    -- 1374: x308 += einsum("wx->wx", w)
    .add 403 (.ein [(57, [0, 1])] [0, 1]) 1 1,
    -- 1375: x309 = np.zeros((nbos, nbos), dtype=types[float])
    .zeros 405 [2, 2],
    -- 1376: x309 += einsum("wx,wy->xy", s2, x308)
    .add 405 (.ein [(30, [0, 1]), (403, [0, 2])] [1, 2]) 1 1,
    -- 1377: x310 += einsum("wx->wx", x309)
    .add 398 (.ein [(405, [0, 1])] [0, 1]) 1 1,
    -- 1378: del x309
    .del 405,
    -- 1379: s2new += einsum("wx->wx", x310)
    .add 274 (.ein [(398, [0, 1])] [0, 1]) 1 1,
    -- 1380: s2new += einsum("wx->xw", x310)
    .add 274 (.ein [(398, [0, 1])] [1, 0]) 1 1,
    -- 1381: del x310
    .del 398,
    -- 1382: u11new_aa += einsum("wx,wia->xia", x308, u11.aa)
    .add 145 (.ein [(403, [0, 1]), (18, [0, 2, 3])] [1, 2, 3]) 1 1,
    -- 1383: u11new_bb += einsum("wx,wia->xia", x308, u11.bb)
    .add 202 (.ein [(403, [0, 1]), (22, [0, 2, 3])] [1, 2, 3]) 1 1,
    -- 1384: del x308
    .del 403,
    -- 1385: x313 = np.zeros((nbos, nocc[0], nvir[0]), dtype=types[float])
    .zeros 406 [2, 0, 1],
    -- 1386: x313 += einsum("wx,xia->wia", s2, g.aa.bov)
    .add 406 (.ein [(30, [0, 1]), (2, [1, 2, 3])] [0, 2, 3]) 1 1,
    -- 1387: x316 += einsum("wia->wia", x313)
    .add 111 (.ein [(406, [0, 1, 2])] [0, 1, 2]) 1 1,
    -- 1388: del x313
    .del 406,
    -- 1389: x314 = np.zeros((nbos, nocc[0], nvir[0]), dtype=types[float])
    .zeros 407 [2, 0, 1],
    -- 1390: x314 += einsum("wia,jbia->wjb", u11.bb, v.aabb.ovov)
    .add 407 (.ein [(22, [0, 1, 2]), (13, [3, 4, 1, 2])] [0, 3, 4]) 1 1,
    -- 1391: x316 += einsum("wia->wia", x314)
    .add 111 (.ein [(407, [0, 1, 2])] [0, 1, 2]) 1 1,
    -- 1392: del x314
    .del 407,
    -- 1393: x316 += einsum("wia->wia", gc.aa.bov)
    .add 111 (.ein [(64, [0, 1, 2])] [0, 1, 2]) 1 1,
    -- 1394: x323 += einsum("ia,wja->wji", t1.aa, x316)
    .add 163 (.ein [(8, [0, 1]), (111, [2, 3, 1])] [2, 3, 0]) 1 1,
    -- 1395: u11new_aa += einsum("wia,ijab->wjb", x316, x10) * -1
    .add 145 (.ein [(111, [0, 1, 2]), (117, [1, 3, 2, 4])] [0, 3, 4]) (-1) 1,
    -- 1396: del x10
    .del 117,
    -- 1397: u11new_bb += einsum("wia,ijab->wjb", x316, t2.abab)
    .add 202 (.ein [(111, [0, 1, 2]), (14, [1, 3, 2, 4])] [0, 3, 4]) 1 1,
    -- 1398: del x316
    .del 111,
    -- 1399: x317 = np.zeros((nbos, nocc[1], nvir[1]), dtype=types[float])
    .zeros 408 [2, 4, 5],
    -- 1400: x317 += einsum("wx,xia->wia", s2, g.bb.bov)
    .add 408 (.ein [(30, [0, 1]), (6, [1, 2, 3])] [0, 2, 3]) 1 1,
    -- 1401: x319 += einsum("wia->wia", x317)
    .add 139 (.ein [(408, [0, 1, 2])] [0, 1, 2]) 1 1,
    -- 1402: del x317
    .del 408,
    -- 1403: x319 += einsum("wia->wia", gc.bb.bov)
    .add 139 (.ein [(68, [0, 1, 2])] [0, 1, 2]) 1 1,
    -- 1404: x329 += einsum("ia,wja->wji", t1.bb, x319)
    .add 218 (.ein [(17, [0, 1]), (139, [2, 3, 1])] [2, 3, 0]) 1 1,
    -- 1405: u11new_aa += einsum("wia,jiba->wjb", x319, t2.abab)
    .add 145 (.ein [(139, [0, 1, 2]), (14, [3, 1, 4, 2])] [0, 3, 4]) 1 1,
    -- 1406: u11new_bb += einsum("wia,ijba->wjb", x319, x41) * -1
    .add 202 (.ein [(139, [0, 1, 2]), (194, [1, 3, 4, 2])] [0, 3, 4]) (-1) 1,
    -- 1407: del x41
    .del 194,
    -- 1408: del x319
    .del 139,
    -- 1409: x321 += einsum("ab->ab", f.aa.vv)
    .add 86 (.ein [(28, [0, 1])] [0, 1]) 1 1,
    -- 1410: u11new_aa += einsum("ab,wib->wia", x321, u11.aa)
    .add 145 (.ein [(86, [0, 1]), (18, [2, 3, 1])] [2, 3, 0]) 1 1,
    -- 1411: del x321
    .del 86,
    -- 1412: x322 += einsum("ia->ia", f.aa.ov)
    .add 98 (.ein [(19, [0, 1])] [0, 1]) 1 1,
    -- 1413: x323 += einsum("ia,wja->wij", x322, u11.aa)
    .add 163 (.ein [(98, [0, 1]), (18, [2, 3, 1])] [2, 0, 3]) 1 1,
    -- 1414: del x322
    .del 98,
    -- 1415: x323 += einsum("wij->wij", gc.aa.boo)
    .add 163 (.ein [(63, [0, 1, 2])] [0, 1, 2]) 1 1,
    -- 1416: x323 += einsum("wx,xij->wij", s2, g.aa.boo)
    .add 163 (.ein [(30, [0, 1]), (0, [1, 2, 3])] [0, 2, 3]) 1 1,
    -- 1417: x323 += einsum("wia,jkia->wjk", u11.bb, v.aabb.ooov)
    .add 163 (.ein [(22, [0, 1, 2]), (15, [3, 4, 1, 2])] [0, 3, 4]) 1 1,
    -- 1418: u11new_aa += einsum("ia,wij->wja", t1.aa, x323) * -1
    .add 145 (.ein [(8, [0, 1]), (163, [2, 0, 3])] [2, 3, 1]) (-1) 1,
    -- 1419: del x323
    .del 163,
    -- 1420: x324 = np.zeros((nocc[0], nvir[0], nvir[0], nvir[0]), dtype=types[float])
    .zeros 409 [0, 1, 1, 1],
    -- 1421: x324 += einsum("iabc->ibac", v.aaaa.ovvv)
    .add 409 (.ein [(12, [0, 1, 2, 3])] [0, 2, 1, 3]) 1 1,
    -- 1422: x324 -= einsum("iabc->ibca", v.aaaa.ovvv)
    .add 409 (.ein [(12, [0, 1, 2, 3])] [0, 2, 3, 1]) (-1) 1,
    -- 1423: x325 = np.zeros((nbos, nvir[0], nvir[0]), dtype=types[float])
    .zeros 410 [2, 1, 1],
    -- 1424: x325 -= einsum("wia,ibca->wbc", u11.aa, x324)
    .add 410 (.ein [(18, [0, 1, 2]), (409, [1, 3, 4, 2])] [0, 3, 4]) (-1) 1,
    -- 1425: del x324
    .del 409,
    -- 1426: x325 += einsum("wab->wab", gc.aa.bvv)
    .add 410 (.ein [(66, [0, 1, 2])] [0, 1, 2]) 1 1,
    -- 1427: x325 += einsum("wx,xab->wab", s2, g.aa.bvv)
    .add 410 (.ein [(30, [0, 1]), (3, [1, 2, 3])] [0, 2, 3]) 1 1,
    -- 1428: x325 += einsum("wia,iabc->wbc", u11.bb, v.bbaa.ovvv)
    .add 410 (.ein [(22, [0, 1, 2]), (27, [1, 2, 3, 4])] [0, 3, 4]) 1 1,
    -- 1429: u11new_aa += einsum("ia,wba->wib", t1.aa, x325)
    .add 145 (.ein [(8, [0, 1]), (410, [2, 3, 1])] [2, 0, 3]) 1 1,
    -- 1430: del x325
    .del 410,
    -- 1431: x327 += einsum("ab->ab", f.bb.vv)
    .add 133 (.ein [(38, [0, 1])] [0, 1]) 1 1,
    -- 1432: u11new_bb += einsum("ab,wib->wia", x327, u11.bb)
    .add 202 (.ein [(133, [0, 1]), (22, [2, 3, 1])] [2, 3, 0]) 1 1,
    -- 1433: del x327
    .del 133,
    -- 1434: x328 += einsum("ia->ia", f.bb.ov)
    .add 124 (.ein [(23, [0, 1])] [0, 1]) 1 1,
    -- 1435: x329 += einsum("ia,wja->wij", x328, u11.bb)
    .add 218 (.ein [(124, [0, 1]), (22, [2, 3, 1])] [2, 0, 3]) 1 1,
    -- 1436: del x328
    .del 124,
    -- 1437: x329 += einsum("wij->wij", gc.bb.boo)
    .add 218 (.ein [(67, [0, 1, 2])] [0, 1, 2]) 1 1,
    -- 1438: x329 += einsum("wx,xij->wij", s2, g.bb.boo)
    .add 218 (.ein [(30, [0, 1]), (4, [1, 2, 3])] [0, 2, 3]) 1 1,
    -- 1439: x329 += einsum("wia,iajk->wjk", u11.aa, v.aabb.ovoo)
    .add 218 (.ein [(18, [0, 1, 2]), (33, [1, 2, 3, 4])] [0, 3, 4]) 1 1,
    -- 1440: u11new_bb += einsum("ia,wij->wja", t1.bb, x329) * -1
    .add 202 (.ein [(17, [0, 1]), (218, [2, 0, 3])] [2, 3, 1]) (-1) 1,
    -- 1441: del x329
    .del 218,
    -- 1442: x330 = np.zeros((nocc[1], nvir[1], nvir[1], nvir[1]), dtype=types[float])
    .zeros 411 [4, 5, 5, 5],
    -- 1443: x330 -= einsum("iabc->ibac", v.bbbb.ovvv)
    .add 411 (.ein [(32, [0, 1, 2, 3])] [0, 2, 1, 3]) (-1) 1,
    -- 1444: x330 += einsum("iabc->ibca", v.bbbb.ovvv)
    .add 411 (.ein [(32, [0, 1, 2, 3])] [0, 2, 3, 1]) 1 1,
    -- 1445: x331 = np.zeros((nbos, nvir[1], nvir[1]), dtype=types[float])
    .zeros 412 [2, 5, 5],
    -- 1446: x331 -= einsum("wia,ibac->wbc", u11.bb, x330)
    .add 412 (.ein [(22, [0, 1, 2]), (411, [1, 3, 2, 4])] [0, 3, 4]) (-1) 1,
    -- 1447: del x330
    .del 411,
    -- 1448: x331 += einsum("wab->wab", gc.bb.bvv)
    .add 412 (.ein [(70, [0, 1, 2])] [0, 1, 2]) 1 1,
    -- 1449: x331 += einsum("wx,xab->wab", s2, g.bb.bvv)
    .add 412 (.ein [(30, [0, 1]), (7, [1, 2, 3])] [0, 2, 3]) 1 1,
    -- 1450: x331 += einsum("wia,iabc->wbc", u11.aa, v.aabb.ovvv)
    .add 412 (.ein [(18, [0, 1, 2]), (37, [1, 2, 3, 4])] [0, 3, 4]) 1 1,
    -- 1451: u11new_bb += einsum("ia,wba->wib", t1.bb, x331)
    .add 202 (.ein [(17, [0, 1]), (412, [2, 3, 1])] [2, 0, 3]) 1 1,
    -- 1452: del x331
    .del 412,
    -- 1453: t1new_aa += einsum("ijab,jbca->ic", t2.abab, v.bbaa.ovvv)
    .add 81 (.ein [(14, [0, 1, 2, 3]), (27, [1, 3, 4, 2])] [0, 4]) 1 1,
    -- 1454: t1new_aa += einsum("wab,wib->ia", g.aa.bvv, u11.aa)
    .add 81 (.ein [(3, [0, 1, 2]), (18, [0, 3, 2])] [3, 1]) 1 1,
    -- 1455: t1new_aa += einsum("ia,iabj->jb", t1.bb, v.bbaa.ovvo)
    .add 81 (.ein [(17, [0, 1]), (40, [0, 1, 2, 3])] [3, 2]) 1 1,
    -- 1456: t1new_aa += einsum("ai->ia", f.aa.vo)
    .add 81 (.ein [(58, [0, 1])] [1, 0]) 1 1,
    -- 1457: t1new_aa += einsum("w,wai->ia", s1, g.aa.bvo)
    .add 81 (.ein [(16, [0]), (1, [0, 1, 2])] [2, 1]) 1 1,
    -- 1458: t1new_bb += einsum("ia,iabj->jb", t1.aa, v.aabb.ovvo)
    .add 116 (.ein [(8, [0, 1]), (45, [0, 1, 2, 3])] [3, 2]) 1 1,
    -- 1459: t1new_bb += einsum("ijab,iacb->jc", t2.abab, v.aabb.ovvv)
    .add 116 (.ein [(14, [0, 1, 2, 3]), (37, [0, 2, 4, 3])] [1, 4]) 1 1,
    -- 1460: t1new_bb += einsum("ai->ia", f.bb.vo)
    .add 116 (.ein [(59, [0, 1])] [1, 0]) 1 1,
    -- 1461: t1new_bb += einsum("wab,wib->ia", g.bb.bvv, u11.bb)
    .add 116 (.ein [(7, [0, 1, 2]), (22, [0, 3, 2])] [3, 1]) 1 1,
    -- 1462: t1new_bb += einsum("w,wai->ia", s1, g.bb.bvo)
    .add 116 (.ein [(16, [0]), (5, [0, 1, 2])] [2, 1]) 1 1,
    -- 1463: t2new_aaaa -= einsum("aibj->jiab", v.aaaa.vovo)
    .add 253 (.ein [(60, [0, 1, 2, 3])] [3, 1, 0, 2]) (-1) 1,
    -- 1464: t2new_aaaa += einsum("aibj->jiba", v.aaaa.vovo)
    .add 253 (.ein [(60, [0, 1, 2, 3])] [3, 1, 2, 0]) 1 1,
    -- 1465: t2new_bbbb -= einsum("aibj->jiab", v.bbbb.vovo)
    .add 272 (.ein [(61, [0, 1, 2, 3])] [3, 1, 0, 2]) (-1) 1,
    -- 1466: t2new_bbbb += einsum("aibj->jiba", v.bbbb.vovo)
    .add 272 (.ein [(61, [0, 1, 2, 3])] [3, 1, 2, 0]) 1 1,
    -- 1467: t2new_baba += einsum("aibj->jiba", v.aabb.vovo)
    .add 165 (.ein [(62, [0, 1, 2, 3])] [3, 1, 2, 0]) 1 1,
    -- 1468: t2new_abab += einsum("aibj->ijab", v.aabb.vovo)
    .add 166 (.ein [(62, [0, 1, 2, 3])] [1, 3, 0, 2]) 1 1,
    -- 1469: s1new += einsum("ia,wia->w", t1.aa, gc.aa.bov)
    .add 174 (.ein [(8, [0, 1]), (64, [2, 0, 1])] [2]) 1 1,
    -- 1470: s1new += einsum("w,wx->x", s1, w)
    .add 174 (.ein [(16, [0]), (57, [0, 1])] [1]) 1 1,
    -- 1471: s1new += einsum("ia,wia->w", t1.bb, gc.bb.bov)
    .add 174 (.ein [(17, [0, 1]), (68, [2, 0, 1])] [2]) 1 1,
    -- 1472: s1new += einsum("w->w", G)
    .add 174 (.ein [(29, [0])] [0]) 1 1,
    -- 1473: u11new_aa += einsum("wx,xai->wia", s2, g.aa.bvo)
    .add 145 (.ein [(30, [0, 1]), (1, [1, 2, 3])] [0, 3, 2]) 1 1,
    -- 1474: u11new_aa += einsum("wia,iabj->wjb", u11.bb, v.bbaa.ovvo)
    .add 145 (.ein [(22, [0, 1, 2]), (40, [1, 2, 3, 4])] [0, 4, 3]) 1 1,
    -- 1475: u11new_aa += einsum("wai->wia", gc.aa.bvo)
    .add 145 (.ein [(65, [0, 1, 2])] [0, 2, 1]) 1 1,
    -- 1476: u11new_bb += einsum("wia,iabj->wjb", u11.aa, v.aabb.ovvo)
    .add 202 (.ein [(18, [0, 1, 2]), (45, [1, 2, 3, 4])] [0, 4, 3]) 1 1,
    -- 1477: u11new_bb += einsum("wx,xai->wia", s2, g.bb.bvo)
    .add 202 (.ein [(30, [0, 1]), (5, [1, 2, 3])] [0, 3, 2]) 1 1,
    -- 1478: u11new_bb += einsum("wai->wia", gc.bb.bvo)
    .add 202 (.ein [(69, [0, 1, 2])] [0, 2, 1]) 1 1,
    -- 1480: t1new.aa = t1new_aa
    .set 413 (.cp 81) 1 1,
    -- 1481: t1new.bb = t1new_bb
    .set 414 (.cp 116) 1 1,
    -- 1482: t2new.abab = t2new_abab
    .set 415 (.cp 166) 1 1,
    -- 1483: t2new.baba = t2new_baba
    .set 416 (.cp 165) 1 1,
    -- 1484: t2new.aaaa = t2new_aaaa
    .set 417 (.cp 253) 1 1,
    -- 1485: t2new.bbbb = t2new_bbbb
    .set 418 (.cp 272) 1 1,
    -- 1486: u11new.aa = u11new_aa
    .set 419 (.cp 145) 1 1,
    -- 1487: u11new.bb = u11new_bb
    .set 420 (.cp 202) 1 1
  ]
  ret := [(chars! "t1new.aa", 413), (chars! "t1new.bb", 414), (chars! "t2new.abab", 415), (chars! "t2new.baba", 416), (chars! "t2new.aaaa", 417), (chars! "t2new.bbbb", 418), (chars! "s1new", 174), (chars! "s2new", 274), (chars! "u11new.aa", 419), (chars! "u11new.bb", 420)]

/-- codegen/UCCSD_SD_1_1.py:1491-3875 `update_lams`. -/
def update_lams : GenFun where
  args := [chars! "g.aa.boo", chars! "g.aa.bvo", chars! "g.aa.bov", chars! "g.aa.bvv", chars! "g.bb.boo", chars! "g.bb.bvo", chars! "g.bb.bov", chars! "g.bb.bvv", chars! "l2.abab", chars! "t2.abab", chars! "v.aabb.ovvv", chars! "t1.bb", chars! "t1.aa", chars! "v.aabb.ovoo", chars! "v.aabb.ooov", chars! "v.bbaa.ovvv", chars! "v.bbaa.oovv", chars! "v.aabb.ovov", chars! "l1.aa", chars! "s1", chars! "f.aa.ov", chars! "t2.aaaa", chars! "v.aaaa.oovo", chars! "v.aaaa.ovvv", chars! "v.aaaa.ovov", chars! "u11.aa", chars! "l2.aaaa", chars! "v.aaaa.ooov", chars! "v.aaaa.ovvo", chars! "v.aaaa.oovv", chars! "v.aaaa.oooo", chars! "t2.bbbb", chars! "v.bbbb.ovvv", chars! "l2.bbbb", chars! "ls1", chars! "v.aabb.oooo", chars! "v.aabb.ovvo", chars! "v.aabb.oovo", chars! "v.aabb.oovv", chars! "l1.bb", chars! "v.aaaa.vvvv", chars! "v.aaaa.vovv", chars! "v.aabb.vvvo", chars! "v.aabb.vvvv", chars! "v.bbaa.ovvo", chars! "v.bbbb.ovov", chars! "u11.bb", chars! "f.bb.ov", chars! "f.aa.oo", chars! "f.aa.vv", chars! "G", chars! "s2", chars! "f.aa.vo", chars! "lu11.aa", chars! "v.bbbb.ooov", chars! "v.bbbb.ovvo", chars! "v.bbbb.oovv", chars! "f.bb.oo", chars! "f.bb.vv", chars! "f.bb.vo", chars! "lu11.bb", chars! "w", chars! "v.bbbb.oovo", chars! "v.bbbb.oooo", chars! "v.bbaa.oovo", chars! "v.bbbb.vvvv", chars! "v.bbbb.vovv", chars! "v.aabb.vovv", chars! "ls2"]
  body := [
    -- 1497: gc = Namespace(
    .set 69 (.tr 0 [0, 2, 1]) 1 1,
    .set 70 (.tr 1 [0, 2, 1]) 1 1,
    .set 71 (.tr 2 [0, 2, 1]) 1 1,
    .set 72 (.tr 3 [0, 2, 1]) 1 1,
    .set 73 (.tr 4 [0, 2, 1]) 1 1,
    .set 74 (.tr 5 [0, 2, 1]) 1 1,
    .set 75 (.tr 6 [0, 2, 1]) 1 1,
    .set 76 (.tr 7 [0, 2, 1]) 1 1,
    -- 1513: x0 = np.zeros((nocc[0], nocc[0], nvir[1], nvir[1]), dtype=types[float])
    .zeros 77 [0, 0, 5, 5],
    -- 1514: x0 += einsum("abij,kjac->ikbc", l2.abab, t2.abab)
    .add 77 (.ein [(8, [0, 1, 2, 3]), (9, [4, 3, 0, 5])] [2, 4, 1, 5]) 1 1,
    -- 1515: l1new_aa = np.zeros((nvir[0], nocc[0]), dtype=types[float])
    .zeros 78 [1, 0],
    -- 1516: l1new_aa += einsum("iabc,jibc->aj", v.aabb.ovvv, x0) * -1
    .add 78 (.ein [(10, [0, 1, 2, 3]), (77, [4, 0, 2, 3])] [1, 4]) (-1) 1,
    -- 1517: del x0
    .del 77,
    -- 1518: x1 = np.zeros((nocc[0], nocc[1], nocc[1], nvir[0]), dtype=types[float])
    .zeros 79 [0, 4, 4, 1],
    -- 1519: x1 += einsum("ia,bajk->jkib", t1.bb, l2.abab)
    .add 79 (.ein [(11, [0, 1]), (8, [2, 1, 3, 4])] [3, 4, 0, 2]) 1 1,
    -- 1520: x3 = np.zeros((nocc[0], nocc[0], nocc[1], nocc[1]), dtype=types[float])
    .zeros 80 [0, 0, 4, 4],
    -- 1521: x3 += einsum("ia,jkla->jikl", t1.aa, x1)
    .add 80 (.ein [(12, [0, 1]), (79, [2, 3, 4, 1])] [2, 0, 3, 4]) 1 1,
    -- 1522: x68 = np.zeros((nocc[0], nocc[0], nocc[1], nocc[1]), dtype=types[float])
    .zeros 81 [0, 0, 4, 4],
    -- 1523: x68 += einsum("ijkl->ijkl", x3)
    .add 81 (.ein [(80, [0, 1, 2, 3])] [0, 1, 2, 3]) 1 1,
    -- 1524: x476 = np.zeros((nocc[0], nocc[0], nocc[1], nocc[1]), dtype=types[float])
    .zeros 82 [0, 0, 4, 4],
    -- 1525: x476 += einsum("ijkl->ijkl", x3)
    .add 82 (.ein [(80, [0, 1, 2, 3])] [0, 1, 2, 3]) 1 1,
    -- 1526: l1new_aa += einsum("iajk,likj->al", v.aabb.ovoo, x3)
    .add 78 (.ein [(13, [0, 1, 2, 3]), (80, [4, 0, 3, 2])] [1, 4]) 1 1,
    -- 1527: l1new_bb = np.zeros((nvir[1], nocc[1]), dtype=types[float])
    .zeros 83 [5, 4],
    -- 1528: l1new_bb += einsum("ijka,jilk->al", v.aabb.ooov, x3)
    .add 83 (.ein [(14, [0, 1, 2, 3]), (80, [1, 0, 4, 2])] [3, 4]) 1 1,
    -- 1529: del x3
    .del 80,
    -- 1530: x55 = np.zeros((nocc[0], nocc[1], nvir[0], nvir[1]), dtype=types[float])
    .zeros 84 [0, 4, 1, 5],
    -- 1531: x55 += einsum("ia,jikb->jkba", t1.bb, x1)
    .add 84 (.ein [(11, [0, 1]), (79, [2, 0, 3, 4])] [2, 3, 4, 1]) 1 1,
    -- 1532: x69 = np.zeros((nocc[0], nocc[0], nocc[1], nvir[1]), dtype=types[float])
    .zeros 85 [0, 0, 4, 5],
    -- 1533: x69 += einsum("ijab,kjla->kilb", t2.abab, x1)
    .add 85 (.ein [(9, [0, 1, 2, 3]), (79, [4, 1, 5, 2])] [4, 0, 5, 3]) 1 1,
    -- 1534: x180 = np.zeros((nocc[1], nvir[1]), dtype=types[float])
    .zeros 86 [4, 5],
    -- 1535: x180 += einsum("ijab,ijka->kb", t2.abab, x1)
    .add 86 (.ein [(9, [0, 1, 2, 3]), (79, [0, 1, 4, 2])] [4, 3]) 1 1,
    -- 1536: x190 = np.zeros((nocc[1], nvir[1]), dtype=types[float])
    .zeros 87 [4, 5],
    -- 1537: x190 += einsum("ia->ia", x180)
    .add 87 (.ein [(86, [0, 1])] [0, 1]) 1 1,
    -- 1538: del x180
    .del 86,
    -- 1539: x262 = np.zeros((nocc[1], nocc[1], nocc[1], nvir[1]), dtype=types[float])
    .zeros 88 [4, 4, 4, 5],
    -- 1540: x262 += einsum("ijab,ikla->kjlb", t2.abab, x1)
    .add 88 (.ein [(9, [0, 1, 2, 3]), (79, [0, 4, 5, 2])] [4, 1, 5, 3]) 1 1,
    -- 1541: x303 = np.zeros((nocc[0], nocc[0], nvir[0], nvir[0]), dtype=types[float])
    .zeros 89 [0, 0, 1, 1],
    -- 1542: x303 += einsum("iajk,lkjb->liba", v.aabb.ovoo, x1)
    .add 89 (.ein [(13, [0, 1, 2, 3]), (79, [4, 3, 2, 5])] [4, 0, 5, 1]) 1 1,
    -- 1543: x342 = np.zeros((nocc[0], nocc[0], nvir[0], nvir[0]), dtype=types[float])
    .zeros 90 [0, 0, 1, 1],
    -- 1544: x342 -= einsum("ijab->ijab", x303)
    .add 90 (.ein [(89, [0, 1, 2, 3])] [0, 1, 2, 3]) (-1) 1,
    -- 1545: del x303
    .del 89,
    -- 1546: x444 = np.zeros((nocc[0], nocc[1], nvir[0], nvir[1]), dtype=types[float])
    .zeros 91 [0, 4, 1, 5],
    -- 1547: x444 += einsum("iabc,jkib->jkca", v.bbaa.ovvv, x1)
    .add 91 (.ein [(15, [0, 1, 2, 3]), (79, [4, 5, 0, 2])] [4, 5, 3, 1]) 1 1,
    -- 1548: l2new_baba = np.zeros((nvir[1], nvir[0], nocc[1], nocc[0]), dtype=types[float])
    .zeros 92 [5, 1, 4, 0],
    -- 1549: l2new_baba -= einsum("ijab->baji", x444)
    .add 92 (.ein [(91, [0, 1, 2, 3])] [3, 2, 1, 0]) (-1) 1,
    -- 1550: l2new_abab = np.zeros((nvir[0], nvir[1], nocc[0], nocc[1]), dtype=types[float])
    .zeros 93 [1, 5, 0, 4],
    -- 1551: l2new_abab -= einsum("ijab->abij", x444)
    .add 93 (.ein [(91, [0, 1, 2, 3])] [2, 3, 0, 1]) (-1) 1,
    -- 1552: del x444
    .del 91,
    -- 1553: l1new_aa -= einsum("ijab,kjia->bk", v.bbaa.oovv, x1)
    .add 78 (.ein [(16, [0, 1, 2, 3]), (79, [4, 1, 0, 2])] [3, 4]) (-1) 1,
    -- 1554: x2 = np.zeros((nocc[0], nocc[0], nocc[1], nocc[1]), dtype=types[float])
    .zeros 94 [0, 0, 4, 4],
    -- 1555: x2 += einsum("abij,klab->ikjl", l2.abab, t2.abab)
    .add 94 (.ein [(8, [0, 1, 2, 3]), (9, [4, 5, 0, 1])] [2, 4, 3, 5]) 1 1,
    -- 1556: x68 += einsum("ijkl->ijkl", x2)
    .add 81 (.ein [(94, [0, 1, 2, 3])] [0, 1, 2, 3]) 1 1,
    -- 1557: x69 += einsum("ia,jkil->jkla", t1.bb, x68)
    .add 85 (.ein [(11, [0, 1]), (81, [2, 3, 0, 4])] [2, 3, 4, 1]) 1 1,
    -- 1558: x267 = np.zeros((nocc[0], nocc[1], nocc[1], nvir[0]), dtype=types[float])
    .zeros 95 [0, 4, 4, 1],
    -- 1559: x267 += einsum("ia,ijkl->jkla", t1.aa, x68)
    .add 95 (.ein [(12, [0, 1]), (81, [0, 2, 3, 4])] [2, 3, 4, 1]) 1 1,
    -- 1560: del x68
    .del 81,
    -- 1561: x476 += einsum("ijkl->ijkl", x2)
    .add 82 (.ein [(94, [0, 1, 2, 3])] [0, 1, 2, 3]) 1 1,
    -- 1562: x477 = np.zeros((nocc[0], nocc[1], nvir[0], nvir[1]), dtype=types[float])
    .zeros 96 [0, 4, 1, 5],
    -- 1563: x477 += einsum("iajb,kilj->klab", v.aabb.ovov, x476)
    .add 96 (.ein [(17, [0, 1, 2, 3]), (82, [4, 0, 5, 2])] [4, 5, 1, 3]) 1 1,
    -- 1564: del x476
    .del 82,
    -- 1565: l2new_baba += einsum("ijab->baji", x477)
    .add 92 (.ein [(96, [0, 1, 2, 3])] [3, 2, 1, 0]) 1 1,
    -- 1566: l2new_abab += einsum("ijab->abij", x477)
    .add 93 (.ein [(96, [0, 1, 2, 3])] [2, 3, 0, 1]) 1 1,
    -- 1567: del x477
    .del 96,
    -- 1568: l1new_aa += einsum("iajk,likj->al", v.aabb.ovoo, x2)
    .add 78 (.ein [(13, [0, 1, 2, 3]), (94, [4, 0, 3, 2])] [1, 4]) 1 1,
    -- 1569: l1new_bb += einsum("ijka,jilk->al", v.aabb.ooov, x2)
    .add 83 (.ein [(14, [0, 1, 2, 3]), (94, [1, 0, 4, 2])] [3, 4]) 1 1,
    -- 1570: del x2
    .del 94,
    -- 1571: x4 = np.zeros((nocc[0], nocc[0]), dtype=types[float])
    .zeros 97 [0, 0],
    -- 1572: x4 += einsum("ai,ja->ij", l1.aa, t1.aa)
    .add 97 (.ein [(18, [0, 1]), (12, [2, 0])] [1, 2]) 1 1,
    -- 1573: x167 = np.zeros((nocc[0], nocc[0]), dtype=types[float])
    .zeros 98 [0, 0],
    -- 1574: x167 += einsum("ij->ij", x4)
    .add 98 (.ein [(97, [0, 1])] [0, 1]) 1 1,
    -- 1575: x220 = np.zeros((nocc[0], nocc[0]), dtype=types[float])
    .zeros 99 [0, 0],
    -- 1576: x220 += einsum("ij->ij", x4)
    .add 99 (.ein [(97, [0, 1])] [0, 1]) 1 1,
    -- 1577: x335 = np.zeros((nocc[0], nocc[0]), dtype=types[float])
    .zeros 100 [0, 0],
    -- 1578: x335 += einsum("ij->ij", x4)
    .add 100 (.ein [(97, [0, 1])] [0, 1]) 1 1,
    -- 1579: x5 = np.zeros((nocc[0], nvir[0]), dtype=types[float])
    .zeros 101 [0, 1],
    -- 1580: x5 += einsum("w,wia->ia", s1, g.aa.bov)
    .add 101 (.ein [(19, [0]), (2, [0, 1, 2])] [1, 2]) 1 1,
    -- 1581: x6 = np.zeros((nocc[0], nvir[0]), dtype=types[float])
    .zeros 102 [0, 1],
    -- 1582: x6 += einsum("ia->ia", x5)
    .add 102 (.ein [(101, [0, 1])] [0, 1]) 1 1,
    -- 1583: x38 = np.zeros((nocc[0], nvir[0]), dtype=types[float])
    .zeros 103 [0, 1],
    -- 1584: x38 += einsum("ia->ia", x5)
    .add 103 (.ein [(101, [0, 1])] [0, 1]) 1 1,
    -- 1585: x322 = np.zeros((nocc[0], nvir[0]), dtype=types[float])
    .zeros 104 [0, 1],
    -- 1586: x322 += einsum("ia->ia", x5)
    .add 104 (.ein [(101, [0, 1])] [0, 1]) 1 1,
    -- 1587: x512 = np.zeros((nocc[0], nvir[0]), dtype=types[float])
    .zeros 105 [0, 1],
    -- 1588: x512 += einsum("ia->ia", x5)
    .add 105 (.ein [(101, [0, 1])] [0, 1]) 1 1,
    -- 1589: l1new_aa -= einsum("ij,ja->ai", x4, x5)
    .add 78 (.ein [(97, [0, 1]), (101, [1, 2])] [2, 0]) (-1) 1,
    -- 1590: del x4
    .del 97,
    -- 1591: del x5
    .del 101,
    -- 1592: x6 += einsum("ia->ia", f.aa.ov)
    .add 102 (.ein [(20, [0, 1])] [0, 1]) 1 1,
    -- 1593: x7 = np.zeros((nocc[0], nocc[0], nocc[0], nvir[0]), dtype=types[float])
    .zeros 106 [0, 0, 0, 1],
    -- 1594: x7 += einsum("ia,jkab->jkib", x6, t2.aaaa)
    .add 106 (.ein [(102, [0, 1]), (21, [2, 3, 1, 4])] [2, 3, 0, 4]) 1 1,
    -- 1595: del x6
    .del 102,
    -- 1596: x8 = np.zeros((nocc[0], nocc[0], nocc[0], nvir[0]), dtype=types[float])
    .zeros 107 [0, 0, 0, 1],
    -- 1597: x8 += einsum("ijka->kjia", x7)
    .add 107 (.ein [(106, [0, 1, 2, 3])] [2, 1, 0, 3]) 1 1,
    -- 1598: del x7
    .del 106,
    -- 1599: x8 += einsum("ijak->ijka", v.aaaa.oovo) * -1
    .add 107 (.ein [(22, [0, 1, 2, 3])] [0, 1, 3, 2]) (-1) 1,
    -- 1600: x33 = np.zeros((nocc[0], nocc[0], nocc[0], nvir[0]), dtype=types[float])
    .zeros 108 [0, 0, 0, 1],
    -- 1601: x33 += einsum("ijka->jika", x8) * -1
    .add 108 (.ein [(107, [0, 1, 2, 3])] [1, 0, 2, 3]) (-1) 1,
    -- 1602: x33 += einsum("ijka->kija", x8)
    .add 108 (.ein [(107, [0, 1, 2, 3])] [2, 0, 1, 3]) 1 1,
    -- 1603: del x8
    .del 107,
    -- 1604: x9 = np.zeros((nocc[0], nocc[0], nocc[0], nvir[0]), dtype=types[float])
    .zeros 109 [0, 0, 0, 1],
    -- 1605: x9 += einsum("ijab,kacb->ijkc", t2.aaaa, v.aaaa.ovvv)
    .add 109 (.ein [(21, [0, 1, 2, 3]), (23, [4, 2, 5, 3])] [0, 1, 4, 5]) 1 1,
    -- 1606: x22 = np.zeros((nocc[0], nocc[0], nocc[0], nvir[0]), dtype=types[float])
    .zeros 110 [0, 0, 0, 1],
    -- 1607: x22 += einsum("ijka->ijka", x9) * -1
    .add 110 (.ein [(109, [0, 1, 2, 3])] [0, 1, 2, 3]) (-1) 1,
    -- 1608: del x9
    .del 109,
    -- 1609: x10 = np.zeros((nocc[0], nocc[0], nvir[0], nvir[0]), dtype=types[float])
    .zeros 111 [0, 0, 1, 1],
    -- 1610: x10 += einsum("ia,jabc->ijbc", t1.aa, v.aaaa.ovvv)
    .add 111 (.ein [(12, [0, 1]), (23, [2, 1, 3, 4])] [0, 2, 3, 4]) 1 1,
    -- 1611: x11 = np.zeros((nocc[0], nocc[0], nocc[0], nvir[0]), dtype=types[float])
    .zeros 112 [0, 0, 0, 1],
    -- 1612: x11 += einsum("ia,jkba->jikb", t1.aa, x10)
    .add 112 (.ein [(12, [0, 1]), (111, [2, 3, 4, 1])] [2, 0, 3, 4]) 1 1,
    -- 1613: del x10
    .del 111,
    -- 1614: x22 += einsum("ijka->ijka", x11) * -1
    .add 110 (.ein [(112, [0, 1, 2, 3])] [0, 1, 2, 3]) (-1) 1,
    -- 1615: del x11
    .del 112,
    -- 1616: x12 = np.zeros((nocc[0], nvir[0]), dtype=types[float])
    .zeros 113 [0, 1],
    -- 1617: x12 += einsum("ia,jbia->jb", t1.bb, v.aabb.ovov)
    .add 113 (.ein [(11, [0, 1]), (17, [2, 3, 0, 1])] [2, 3]) 1 1,
    -- 1618: x15 = np.zeros((nocc[0], nvir[0]), dtype=types[float])
    .zeros 114 [0, 1],
    -- 1619: x15 += einsum("ia->ia", x12)
    .add 114 (.ein [(113, [0, 1])] [0, 1]) 1 1,
    -- 1620: x38 += einsum("ia->ia", x12)
    .add 103 (.ein [(113, [0, 1])] [0, 1]) 1 1,
    -- 1621: x221 = np.zeros((nocc[0], nvir[0]), dtype=types[float])
    .zeros 115 [0, 1],
    -- 1622: x221 += einsum("ia->ia", x12)
    .add 115 (.ein [(113, [0, 1])] [0, 1]) 1 1,
    -- 1623: x341 = np.zeros((nocc[0], nvir[0]), dtype=types[float])
    .zeros 116 [0, 1],
    -- 1624: x341 += einsum("ia->ia", x12)
    .add 116 (.ein [(113, [0, 1])] [0, 1]) 1 1,
    -- 1625: x512 += einsum("ia->ia", x12)
    .add 105 (.ein [(113, [0, 1])] [0, 1]) 1 1,
    -- 1626: del x12
    .del 113,
    -- 1627: x13 = np.zeros((nocc[0], nocc[0], nvir[0], nvir[0]), dtype=types[float])
    .zeros 117 [0, 0, 1, 1],
    -- 1628: x13 += einsum("iajb->jiab", v.aaaa.ovov) * -1
    .add 117 (.ein [(24, [0, 1, 2, 3])] [2, 0, 1, 3]) (-1) 1,
    -- 1629: x13 += einsum("iajb->jiba", v.aaaa.ovov)
    .add 117 (.ein [(24, [0, 1, 2, 3])] [2, 0, 3, 1]) 1 1,
    -- 1630: x14 = np.zeros((nocc[0], nvir[0]), dtype=types[float])
    .zeros 118 [0, 1],
    -- 1631: x14 += einsum("ia,ijba->jb", t1.aa, x13)
    .add 118 (.ein [(12, [0, 1]), (117, [0, 2, 3, 1])] [2, 3]) 1 1,
    -- 1632: x15 += einsum("ia->ia", x14) * -1
    .add 114 (.ein [(118, [0, 1])] [0, 1]) (-1) 1,
    -- 1633: x16 = np.zeros((nocc[0], nocc[0], nocc[0], nvir[0]), dtype=types[float])
    .zeros 119 [0, 0, 0, 1],
    -- 1634: x16 += einsum("ia,jkab->jkib", x15, t2.aaaa)
    .add 119 (.ein [(114, [0, 1]), (21, [2, 3, 1, 4])] [2, 3, 0, 4]) 1 1,
    -- 1635: x22 += einsum("ijka->jika", x16)
    .add 110 (.ein [(119, [0, 1, 2, 3])] [1, 0, 2, 3]) 1 1,
    -- 1636: del x16
    .del 119,
    -- 1637: x351 = np.zeros((nocc[0], nocc[0]), dtype=types[float])
    .zeros 120 [0, 0],
    -- 1638: x351 += einsum("ia,ja->ij", t1.aa, x15)
    .add 120 (.ein [(12, [0, 1]), (114, [2, 1])] [0, 2]) 1 1,
    -- 1639: x352 = np.zeros((nocc[0], nocc[0]), dtype=types[float])
    .zeros 121 [0, 0],
    -- 1640: x352 += einsum("ij->ij", x351)
    .add 121 (.ein [(120, [0, 1])] [0, 1]) 1 1,
    -- 1641: del x351
    .del 120,
    -- 1642: x38 += einsum("ia->ia", x14) * -1
    .add 103 (.ein [(118, [0, 1])] [0, 1]) (-1) 1,
    -- 1643: x221 += einsum("ia->ia", x14) * -1
    .add 115 (.ein [(118, [0, 1])] [0, 1]) (-1) 1,
    -- 1644: del x14
    .del 118,
    -- 1645: x198 = np.zeros((nbos, nocc[0], nvir[0]), dtype=types[float])
    .zeros 122 [2, 0, 1],
    -- 1646: x198 += einsum("wia,ijba->wjb", u11.aa, x13)
    .add 122 (.ein [(25, [0, 1, 2]), (117, [1, 3, 4, 2])] [0, 3, 4]) 1 1,
    -- 1647: x199 = np.zeros((nbos, nocc[0], nvir[0]), dtype=types[float])
    .zeros 123 [2, 0, 1],
    -- 1648: x199 += einsum("wia->wia", x198) * -1
    .add 123 (.ein [(122, [0, 1, 2])] [0, 1, 2]) (-1) 1,
    -- 1649: x211 = np.zeros((nbos, nocc[0], nvir[0]), dtype=types[float])
    .zeros 124 [2, 0, 1],
    -- 1650: x211 += einsum("wia->wia", x198) * -1
    .add 124 (.ein [(122, [0, 1, 2])] [0, 1, 2]) (-1) 1,
    -- 1651: del x198
    .del 122,
    -- 1652: x453 = np.zeros((nocc[0], nocc[1], nvir[0], nvir[1]), dtype=types[float])
    .zeros 125 [0, 4, 1, 5],
    -- 1653: x453 += einsum("ijab,ikca->kjcb", t2.abab, x13)
    .add 125 (.ein [(9, [0, 1, 2, 3]), (117, [0, 4, 5, 2])] [4, 1, 5, 3]) 1 1,
    -- 1654: x455 = np.zeros((nocc[0], nocc[1], nvir[0], nvir[1]), dtype=types[float])
    .zeros 126 [0, 4, 1, 5],
    -- 1655: x455 += einsum("ijab->ijab", x453) * -1
    .add 126 (.ein [(125, [0, 1, 2, 3])] [0, 1, 2, 3]) (-1) 1,
    -- 1656: del x453
    .del 125,
    -- 1657: x17 = np.zeros((nocc[0], nocc[0], nocc[0], nocc[0]), dtype=types[float])
    .zeros 127 [0, 0, 0, 0],
    -- 1658: x17 += einsum("ijab,kbla->ijlk", t2.aaaa, v.aaaa.ovov)
    .add 127 (.ein [(21, [0, 1, 2, 3]), (24, [4, 3, 5, 2])] [0, 1, 5, 4]) 1 1,
    -- 1659: x20 = np.zeros((nocc[0], nocc[0], nocc[0], nocc[0]), dtype=types[float])
    .zeros 128 [0, 0, 0, 0],
    -- 1660: x20 += einsum("ijkl->jilk", x17)
    .add 128 (.ein [(127, [0, 1, 2, 3])] [1, 0, 3, 2]) 1 1,
    -- 1661: x368 = np.zeros((nocc[0], nocc[0], nocc[0], nocc[0]), dtype=types[float])
    .zeros 129 [0, 0, 0, 0],
    -- 1662: x368 += einsum("ijkl->jilk", x17)
    .add 129 (.ein [(127, [0, 1, 2, 3])] [1, 0, 3, 2]) 1 1,
    -- 1663: del x17
    .del 127,
    -- 1664: x18 = np.zeros((nocc[0], nocc[0], nocc[0], nvir[0]), dtype=types[float])
    .zeros 130 [0, 0, 0, 1],
    -- 1665: x18 += einsum("ia,jakb->ikjb", t1.aa, v.aaaa.ovov)
    .add 130 (.ein [(12, [0, 1]), (24, [2, 1, 3, 4])] [0, 3, 2, 4]) 1 1,
    -- 1666: x19 = np.zeros((nocc[0], nocc[0], nocc[0], nocc[0]), dtype=types[float])
    .zeros 131 [0, 0, 0, 0],
    -- 1667: x19 += einsum("ia,jkla->ijkl", t1.aa, x18)
    .add 131 (.ein [(12, [0, 1]), (130, [2, 3, 4, 1])] [0, 2, 3, 4]) 1 1,
    -- 1668: x20 += einsum("ijkl->ijkl", x19)
    .add 128 (.ein [(131, [0, 1, 2, 3])] [0, 1, 2, 3]) 1 1,
    -- 1669: x21 = np.zeros((nocc[0], nocc[0], nocc[0], nvir[0]), dtype=types[float])
    .zeros 132 [0, 0, 0, 1],
    -- 1670: x21 += einsum("ia,jkil->jkla", t1.aa, x20)
    .add 132 (.ein [(12, [0, 1]), (128, [2, 3, 0, 4])] [2, 3, 4, 1]) 1 1,
    -- 1671: del x20
    .del 128,
    -- 1672: x22 += einsum("ijka->jika", x21)
    .add 110 (.ein [(132, [0, 1, 2, 3])] [1, 0, 2, 3]) 1 1,
    -- 1673: del x21
    .del 132,
    -- 1674: x33 += einsum("ijka->ikja", x22) * -1
    .add 108 (.ein [(110, [0, 1, 2, 3])] [0, 2, 1, 3]) (-1) 1,
    -- 1675: x33 += einsum("ijka->jkia", x22)
    .add 108 (.ein [(110, [0, 1, 2, 3])] [1, 2, 0, 3]) 1 1,
    -- 1676: del x22
    .del 110,
    -- 1677: x368 += einsum("ijkl->ijkl", x19)
    .add 129 (.ein [(131, [0, 1, 2, 3])] [0, 1, 2, 3]) 1 1,
    -- 1678: del x19
    .del 131,
    -- 1679: x369 = np.zeros((nocc[0], nocc[0], nvir[0], nvir[0]), dtype=types[float])
    .zeros 133 [0, 0, 1, 1],
    -- 1680: x369 += einsum("abij,ijkl->klab", l2.aaaa, x368)
    .add 133 (.ein [(26, [0, 1, 2, 3]), (129, [2, 3, 4, 5])] [4, 5, 0, 1]) 1 1,
    -- 1681: del x368
    .del 129,
    -- 1682: x370 = np.zeros((nocc[0], nocc[0], nvir[0], nvir[0]), dtype=types[float])
    .zeros 134 [0, 0, 1, 1],
    -- 1683: x370 += einsum("ijab->ijab", x369)
    .add 134 (.ein [(133, [0, 1, 2, 3])] [0, 1, 2, 3]) 1 1,
    -- 1684: del x369
    .del 133,
    -- 1685: x23 = np.zeros((nocc[0], nocc[0], nocc[0], nvir[0]), dtype=types[float])
    .zeros 135 [0, 0, 0, 1],
    -- 1686: x23 += einsum("ijka->ijka", x18) * -1
    .add 135 (.ein [(130, [0, 1, 2, 3])] [0, 1, 2, 3]) (-1) 1,
    -- 1687: x23 += einsum("ijka->ikja", x18)
    .add 135 (.ein [(130, [0, 1, 2, 3])] [0, 2, 1, 3]) 1 1,
    -- 1688: x34 = np.zeros((nocc[0], nocc[0], nocc[0], nvir[0]), dtype=types[float])
    .zeros 136 [0, 0, 0, 1],
    -- 1689: x34 += einsum("ijka->jkia", x18) * -1
    .add 136 (.ein [(130, [0, 1, 2, 3])] [1, 2, 0, 3]) (-1) 1,
    -- 1690: x34 += einsum("ijka->kjia", x18)
    .add 136 (.ein [(130, [0, 1, 2, 3])] [2, 1, 0, 3]) 1 1,
    -- 1691: x79 = np.zeros((nocc[0], nocc[0], nocc[0], nvir[0]), dtype=types[float])
    .zeros 137 [0, 0, 0, 1],
    -- 1692: x79 += einsum("ijka->jkia", x18) * -1
    .add 137 (.ein [(130, [0, 1, 2, 3])] [1, 2, 0, 3]) (-1) 1,
    -- 1693: x86 = np.zeros((nocc[0], nocc[0], nocc[0], nvir[0]), dtype=types[float])
    .zeros 138 [0, 0, 0, 1],
    -- 1694: x86 += einsum("ijka->jkia", x18) * -1
    .add 138 (.ein [(130, [0, 1, 2, 3])] [1, 2, 0, 3]) (-1) 1,
    -- 1695: x86 += einsum("ijka->kjia", x18)
    .add 138 (.ein [(130, [0, 1, 2, 3])] [2, 1, 0, 3]) 1 1,
    -- 1696: x338 = np.zeros((nocc[0], nocc[0], nocc[0], nvir[0]), dtype=types[float])
    .zeros 139 [0, 0, 0, 1],
    -- 1697: x338 += einsum("ijka->ijka", x18)
    .add 139 (.ein [(130, [0, 1, 2, 3])] [0, 1, 2, 3]) 1 1,
    -- 1698: x347 = np.zeros((nocc[0], nocc[0], nocc[0], nvir[0]), dtype=types[float])
    .zeros 140 [0, 0, 0, 1],
    -- 1699: x347 += einsum("ijka->ijka", x18)
    .add 140 (.ein [(130, [0, 1, 2, 3])] [0, 1, 2, 3]) 1 1,
    -- 1700: x347 += einsum("ijka->ikja", x18) * -1
    .add 140 (.ein [(130, [0, 1, 2, 3])] [0, 2, 1, 3]) (-1) 1,
    -- 1701: x514 = np.zeros((nocc[0], nocc[0], nocc[0], nvir[0]), dtype=types[float])
    .zeros 141 [0, 0, 0, 1],
    -- 1702: x514 += einsum("ijka->ijka", x18) * -1
    .add 141 (.ein [(130, [0, 1, 2, 3])] [0, 1, 2, 3]) (-1) 1,
    -- 1703: x514 += einsum("ijka->ikja", x18)
    .add 141 (.ein [(130, [0, 1, 2, 3])] [0, 2, 1, 3]) 1 1,
    -- 1704: del x18
    .del 130,
    -- 1705: x23 += einsum("ijka->jika", v.aaaa.ooov)
    .add 135 (.ein [(27, [0, 1, 2, 3])] [1, 0, 2, 3]) 1 1,
    -- 1706: x23 += einsum("ijka->jkia", v.aaaa.ooov) * -1
    .add 135 (.ein [(27, [0, 1, 2, 3])] [1, 2, 0, 3]) (-1) 1,
    -- 1707: x24 = np.zeros((nocc[0], nocc[0], nvir[0], nvir[0]), dtype=types[float])
    .zeros 142 [0, 0, 1, 1],
    -- 1708: x24 += einsum("ijab->jiab", t2.aaaa) * -1
    .add 142 (.ein [(21, [0, 1, 2, 3])] [1, 0, 2, 3]) (-1) 1,
    -- 1709: x24 += einsum("ijab->jiba", t2.aaaa)
    .add 142 (.ein [(21, [0, 1, 2, 3])] [1, 0, 3, 2]) 1 1,
    -- 1710: x25 = np.zeros((nocc[0], nocc[0], nocc[0], nvir[0]), dtype=types[float])
    .zeros 143 [0, 0, 0, 1],
    -- 1711: x25 += einsum("ijka,jlba->iklb", x23, x24)
    .add 143 (.ein [(135, [0, 1, 2, 3]), (142, [1, 4, 5, 3])] [0, 2, 4, 5]) 1 1,
    -- 1712: del x23
    .del 135,
    -- 1713: x33 += einsum("ijka->ijka", x25)
    .add 108 (.ein [(143, [0, 1, 2, 3])] [0, 1, 2, 3]) 1 1,
    -- 1714: x53 = np.zeros((nocc[0], nocc[0], nocc[0], nvir[0]), dtype=types[float])
    .zeros 144 [0, 0, 0, 1],
    -- 1715: x53 += einsum("ijka->ijka", x25)
    .add 144 (.ein [(143, [0, 1, 2, 3])] [0, 1, 2, 3]) 1 1,
    -- 1716: del x25
    .del 143,
    -- 1717: x60 = np.zeros((nocc[0], nocc[0]), dtype=types[float])
    .zeros 145 [0, 0],
    -- 1718: x60 += einsum("abij,ikba->jk", l2.aaaa, x24)
    .add 145 (.ein [(26, [0, 1, 2, 3]), (142, [2, 4, 1, 0])] [3, 4]) 1 1,
    -- 1719: x61 = np.zeros((nocc[0], nocc[0]), dtype=types[float])
    .zeros 146 [0, 0],
    -- 1720: x61 += einsum("ij->ij", x60) * -1
    .add 146 (.ein [(145, [0, 1])] [0, 1]) (-1) 1,
    -- 1721: x167 += einsum("ij->ij", x60) * -1
    .add 98 (.ein [(145, [0, 1])] [0, 1]) (-1) 1,
    -- 1722: x209 = np.zeros((nocc[0], nocc[0]), dtype=types[float])
    .zeros 147 [0, 0],
    -- 1723: x209 += einsum("ij->ij", x60) * -1
    .add 147 (.ein [(145, [0, 1])] [0, 1]) (-1) 1,
    -- 1724: del x60
    .del 145,
    -- 1725: x85 = np.zeros((nocc[0], nvir[0]), dtype=types[float])
    .zeros 148 [0, 1],
    -- 1726: x85 += einsum("iabc,ijca->jb", v.aaaa.ovvv, x24)
    .add 148 (.ein [(23, [0, 1, 2, 3]), (142, [0, 4, 3, 1])] [4, 2]) 1 1,
    -- 1727: x120 = np.zeros((nocc[0], nvir[0]), dtype=types[float])
    .zeros 149 [0, 1],
    -- 1728: x120 += einsum("ia->ia", x85) * -1
    .add 149 (.ein [(148, [0, 1])] [0, 1]) (-1) 1,
    -- 1729: del x85
    .del 148,
    -- 1730: x104 = np.zeros((nocc[0], nocc[0]), dtype=types[float])
    .zeros 150 [0, 0],
    -- 1731: x104 += einsum("iajb,ikba->kj", v.aaaa.ovov, x24)
    .add 150 (.ein [(24, [0, 1, 2, 3]), (142, [0, 4, 3, 1])] [4, 2]) 1 1,
    -- 1732: x108 = np.zeros((nocc[0], nocc[0]), dtype=types[float])
    .zeros 151 [0, 0],
    -- 1733: x108 += einsum("ij->ji", x104) * -1
    .add 151 (.ein [(150, [0, 1])] [1, 0]) (-1) 1,
    -- 1734: del x104
    .del 150,
    -- 1735: x448 = np.zeros((nocc[0], nocc[1], nvir[0], nvir[1]), dtype=types[float])
    .zeros 152 [0, 4, 1, 5],
    -- 1736: x448 += einsum("iajb,ikca->kjcb", v.aabb.ovov, x24)
    .add 152 (.ein [(17, [0, 1, 2, 3]), (142, [0, 4, 5, 1])] [4, 2, 5, 3]) 1 1,
    -- 1737: x450 = np.zeros((nocc[0], nocc[1], nvir[0], nvir[1]), dtype=types[float])
    .zeros 153 [0, 4, 1, 5],
    -- 1738: x450 += einsum("ijab->ijab", x448) * -1
    .add 153 (.ein [(152, [0, 1, 2, 3])] [0, 1, 2, 3]) (-1) 1,
    -- 1739: del x448
    .del 152,
    -- 1740: x26 = np.zeros((nocc[0], nocc[0], nocc[1], nvir[1]), dtype=types[float])
    .zeros 154 [0, 0, 4, 5],
    -- 1741: x26 += einsum("ia,jakb->ijkb", t1.aa, v.aabb.ovov)
    .add 154 (.ein [(12, [0, 1]), (17, [2, 1, 3, 4])] [0, 2, 3, 4]) 1 1,
    -- 1742: x27 = np.zeros((nocc[0], nocc[0], nocc[1], nvir[1]), dtype=types[float])
    .zeros 155 [0, 0, 4, 5],
    -- 1743: x27 += einsum("ijka->jika", x26)
    .add 155 (.ein [(154, [0, 1, 2, 3])] [1, 0, 2, 3]) 1 1,
    -- 1744: x508 = np.zeros((nocc[0], nocc[0], nocc[1], nvir[1]), dtype=types[float])
    .zeros 156 [0, 0, 4, 5],
    -- 1745: x508 += einsum("ijka->jika", x26)
    .add 156 (.ein [(154, [0, 1, 2, 3])] [1, 0, 2, 3]) 1 1,
    -- 1746: x27 += einsum("ijka->ijka", v.aabb.ooov)
    .add 155 (.ein [(14, [0, 1, 2, 3])] [0, 1, 2, 3]) 1 1,
    -- 1747: x28 = np.zeros((nocc[0], nocc[0], nocc[0], nvir[0]), dtype=types[float])
    .zeros 157 [0, 0, 0, 1],
    -- 1748: x28 += einsum("ijab,kljb->ikla", t2.abab, x27)
    .add 157 (.ein [(9, [0, 1, 2, 3]), (155, [4, 5, 1, 3])] [0, 4, 5, 2]) 1 1,
    -- 1749: x33 += einsum("ijka->kjia", x28)
    .add 108 (.ein [(157, [0, 1, 2, 3])] [2, 1, 0, 3]) 1 1,
    -- 1750: x53 += einsum("ijka->kjia", x28)
    .add 144 (.ein [(157, [0, 1, 2, 3])] [2, 1, 0, 3]) 1 1,
    -- 1751: del x28
    .del 157,
    -- 1752: x88 = np.zeros((nocc[0], nvir[0]), dtype=types[float])
    .zeros 158 [0, 1],
    -- 1753: x88 += einsum("ijab,ikjb->ka", t2.abab, x27)
    .add 158 (.ein [(9, [0, 1, 2, 3]), (155, [0, 4, 1, 3])] [4, 2]) 1 1,
    -- 1754: x120 += einsum("ia->ia", x88) * -1
    .add 149 (.ein [(158, [0, 1])] [0, 1]) (-1) 1,
    -- 1755: del x88
    .del 158,
    -- 1756: x250 = np.zeros((nocc[0], nocc[1], nocc[1], nvir[0]), dtype=types[float])
    .zeros 159 [0, 4, 4, 1],
    -- 1757: x250 += einsum("ijab,iklb->klja", t2.abab, x27) * -1
    .add 159 (.ein [(9, [0, 1, 2, 3]), (155, [0, 4, 5, 3])] [4, 5, 1, 2]) (-1) 1,
    -- 1758: x478 = np.zeros((nocc[0], nocc[1], nvir[0], nvir[1]), dtype=types[float])
    .zeros 160 [0, 4, 1, 5],
    -- 1759: x478 += einsum("ijka,likb->ljab", x1, x27)
    .add 160 (.ein [(79, [0, 1, 2, 3]), (155, [4, 0, 2, 5])] [4, 1, 3, 5]) 1 1,
    -- 1760: l2new_baba += einsum("ijab->baji", x478)
    .add 92 (.ein [(160, [0, 1, 2, 3])] [3, 2, 1, 0]) 1 1,
    -- 1761: l2new_abab += einsum("ijab->abij", x478)
    .add 93 (.ein [(160, [0, 1, 2, 3])] [2, 3, 0, 1]) 1 1,
    -- 1762: del x478
    .del 160,
    -- 1763: x29 = np.zeros((nocc[0], nocc[0], nvir[0], nvir[0]), dtype=types[float])
    .zeros 161 [0, 0, 1, 1],
    -- 1764: x29 += einsum("iabj->ijba", v.aaaa.ovvo)
    .add 161 (.ein [(28, [0, 1, 2, 3])] [0, 3, 2, 1]) 1 1,
    -- 1765: x29 += einsum("ijab->ijab", v.aaaa.oovv) * -1
    .add 161 (.ein [(29, [0, 1, 2, 3])] [0, 1, 2, 3]) (-1) 1,
    -- 1766: x30 = np.zeros((nocc[0], nocc[0], nocc[0], nvir[0]), dtype=types[float])
    .zeros 162 [0, 0, 0, 1],
    -- 1767: x30 += einsum("ia,jkba->ijkb", t1.aa, x29)
    .add 162 (.ein [(12, [0, 1]), (161, [2, 3, 4, 1])] [0, 2, 3, 4]) 1 1,
    -- 1768: x33 += einsum("ijka->ijka", x30)
    .add 108 (.ein [(162, [0, 1, 2, 3])] [0, 1, 2, 3]) 1 1,
    -- 1769: x53 += einsum("ijka->ijka", x30)
    .add 144 (.ein [(162, [0, 1, 2, 3])] [0, 1, 2, 3]) 1 1,
    -- 1770: del x30
    .del 162,
    -- 1771: x96 = np.zeros((nocc[0], nvir[0]), dtype=types[float])
    .zeros 163 [0, 1],
    -- 1772: x96 += einsum("ia,ijba->jb", t1.aa, x29)
    .add 163 (.ein [(12, [0, 1]), (161, [0, 2, 3, 1])] [2, 3]) 1 1,
    -- 1773: x120 += einsum("ia->ia", x96)
    .add 149 (.ein [(163, [0, 1])] [0, 1]) 1 1,
    -- 1774: del x96
    .del 163,
    -- 1775: x31 = np.zeros((nocc[0], nocc[0], nocc[0], nocc[0]), dtype=types[float])
    .zeros 164 [0, 0, 0, 0],
    -- 1776: x31 += einsum("ia,jkla->ijlk", t1.aa, v.aaaa.ooov)
    .add 164 (.ein [(12, [0, 1]), (27, [2, 3, 4, 1])] [0, 2, 4, 3]) 1 1,
    -- 1777: x32 = np.zeros((nocc[0], nocc[0], nocc[0], nocc[0]), dtype=types[float])
    .zeros 165 [0, 0, 0, 0],
    -- 1778: x32 += einsum("ijkl->jkil", x31)
    .add 165 (.ein [(164, [0, 1, 2, 3])] [1, 2, 0, 3]) 1 1,
    -- 1779: x32 += einsum("ijkl->kjil", x31) * -1
    .add 165 (.ein [(164, [0, 1, 2, 3])] [2, 1, 0, 3]) (-1) 1,
    -- 1780: x52 = np.zeros((nocc[0], nocc[0], nocc[0], nocc[0]), dtype=types[float])
    .zeros 166 [0, 0, 0, 0],
    -- 1781: x52 += einsum("ijkl->ijkl", x31)
    .add 166 (.ein [(164, [0, 1, 2, 3])] [0, 1, 2, 3]) 1 1,
    -- 1782: x52 += einsum("ijkl->ikjl", x31) * -1
    .add 166 (.ein [(164, [0, 1, 2, 3])] [0, 2, 1, 3]) (-1) 1,
    -- 1783: x53 += einsum("ia,jikl->jkla", t1.aa, x52) * -1
    .add 144 (.ein [(12, [0, 1]), (166, [2, 0, 3, 4])] [2, 3, 4, 1]) (-1) 1,
    -- 1784: del x52
    .del 166,
    -- 1785: l1new_aa += einsum("abij,jkib->ak", l2.aaaa, x53)
    .add 78 (.ein [(26, [0, 1, 2, 3]), (144, [3, 4, 2, 1])] [0, 4]) 1 1,
    -- 1786: del x53
    .del 144,
    -- 1787: x301 = np.zeros((nocc[0], nocc[0], nvir[0], nvir[0]), dtype=types[float])
    .zeros 167 [0, 0, 1, 1],
    -- 1788: x301 += einsum("abij,jkli->klba", l2.aaaa, x31)
    .add 167 (.ein [(26, [0, 1, 2, 3]), (164, [3, 4, 5, 2])] [4, 5, 1, 0]) 1 1,
    -- 1789: del x31
    .del 164,
    -- 1790: x342 -= einsum("ijab->ijab", x301)
    .add 90 (.ein [(167, [0, 1, 2, 3])] [0, 1, 2, 3]) (-1) 1,
    -- 1791: del x301
    .del 167,
    -- 1792: x32 += einsum("ijkl->kijl", v.aaaa.oooo)
    .add 165 (.ein [(30, [0, 1, 2, 3])] [2, 0, 1, 3]) 1 1,
    -- 1793: x32 += einsum("ijkl->kilj", v.aaaa.oooo) * -1
    .add 165 (.ein [(30, [0, 1, 2, 3])] [2, 0, 3, 1]) (-1) 1,
    -- 1794: x33 += einsum("ia,ijkl->kjla", t1.aa, x32) * -1
    .add 108 (.ein [(12, [0, 1]), (165, [0, 2, 3, 4])] [3, 2, 4, 1]) (-1) 1,
    -- 1795: del x32
    .del 165,
    -- 1796: l1new_aa += einsum("abij,jkia->bk", l2.aaaa, x33) * -1
    .add 78 (.ein [(26, [0, 1, 2, 3]), (108, [3, 4, 2, 0])] [1, 4]) (-1) 1,
    -- 1797: del x33
    .del 108,
    -- 1798: x34 += einsum("ijka->ikja", v.aaaa.ooov)
    .add 136 (.ein [(27, [0, 1, 2, 3])] [0, 2, 1, 3]) 1 1,
    -- 1799: x34 += einsum("ijka->kija", v.aaaa.ooov) * -1
    .add 136 (.ein [(27, [0, 1, 2, 3])] [2, 0, 1, 3]) (-1) 1,
    -- 1800: x46 = np.zeros((nocc[0], nocc[0], nocc[1], nvir[1]), dtype=types[float])
    .zeros 168 [0, 0, 4, 5],
    -- 1801: x46 += einsum("ijab,ikla->kljb", t2.abab, x34) * -1
    .add 168 (.ein [(9, [0, 1, 2, 3]), (136, [0, 4, 5, 2])] [4, 5, 1, 3]) (-1) 1,
    -- 1802: del x34
    .del 136,
    -- 1803: x35 = np.zeros((nocc[1], nocc[1], nvir[1], nvir[1]), dtype=types[float])
    .zeros 169 [4, 4, 5, 5],
    -- 1804: x35 += einsum("ijab->jiab", t2.bbbb) * -1
    .add 169 (.ein [(31, [0, 1, 2, 3])] [1, 0, 2, 3]) (-1) 1,
    -- 1805: x35 += einsum("ijab->jiba", t2.bbbb)
    .add 169 (.ein [(31, [0, 1, 2, 3])] [1, 0, 3, 2]) 1 1,
    -- 1806: x46 += einsum("ijka,klba->ijlb", x27, x35) * -1
    .add 168 (.ein [(155, [0, 1, 2, 3]), (169, [2, 4, 5, 3])] [0, 1, 4, 5]) (-1) 1,
    -- 1807: del x27
    .del 155,
    -- 1808: x128 = np.zeros((nocc[1], nvir[1]), dtype=types[float])
    .zeros 170 [4, 5],
    -- 1809: x128 += einsum("iabc,ijca->jb", v.bbbb.ovvv, x35)
    .add 170 (.ein [(32, [0, 1, 2, 3]), (169, [0, 4, 3, 1])] [4, 2]) 1 1,
    -- 1810: x158 = np.zeros((nocc[1], nvir[1]), dtype=types[float])
    .zeros 171 [4, 5],
    -- 1811: x158 += einsum("ia->ia", x128) * -1
    .add 171 (.ein [(170, [0, 1])] [0, 1]) (-1) 1,
    -- 1812: del x128
    .del 170,
    -- 1813: x187 = np.zeros((nocc[1], nocc[1]), dtype=types[float])
    .zeros 172 [4, 4],
    -- 1814: x187 += einsum("abij,ikba->jk", l2.bbbb, x35)
    .add 172 (.ein [(33, [0, 1, 2, 3]), (169, [2, 4, 1, 0])] [3, 4]) 1 1,
    -- 1815: x188 = np.zeros((nocc[1], nocc[1]), dtype=types[float])
    .zeros 173 [4, 4],
    -- 1816: x188 += einsum("ij->ij", x187) * -1
    .add 173 (.ein [(172, [0, 1])] [0, 1]) (-1) 1,
    -- 1817: x261 = np.zeros((nocc[1], nocc[1]), dtype=types[float])
    .zeros 174 [4, 4],
    -- 1818: x261 += einsum("ij->ij", x187) * -1
    .add 174 (.ein [(172, [0, 1])] [0, 1]) (-1) 1,
    -- 1819: x293 = np.zeros((nocc[1], nocc[1]), dtype=types[float])
    .zeros 175 [4, 4],
    -- 1820: x293 += einsum("ij->ij", x187) * -1
    .add 175 (.ein [(172, [0, 1])] [0, 1]) (-1) 1,
    -- 1821: del x187
    .del 172,
    -- 1822: x194 = np.zeros((nvir[1], nvir[1]), dtype=types[float])
    .zeros 176 [5, 5],
    -- 1823: x194 += einsum("abij,ijbc->ac", l2.bbbb, x35)
    .add 176 (.ein [(33, [0, 1, 2, 3]), (169, [2, 3, 1, 4])] [0, 4]) 1 1,
    -- 1824: x195 = np.zeros((nvir[1], nvir[1]), dtype=types[float])
    .zeros 177 [5, 5],
    -- 1825: x195 += einsum("ab->ab", x194) * -1
    .add 177 (.ein [(176, [0, 1])] [0, 1]) (-1) 1,
    -- 1826: x435 = np.zeros((nvir[1], nvir[1]), dtype=types[float])
    .zeros 178 [5, 5],
    -- 1827: x435 += einsum("ab->ab", x194) * -1
    .add 178 (.ein [(176, [0, 1])] [0, 1]) (-1) 1,
    -- 1828: x496 = np.zeros((nvir[1], nvir[1]), dtype=types[float])
    .zeros 179 [5, 5],
    -- 1829: x496 += einsum("ab->ab", x194) * -1
    .add 179 (.ein [(176, [0, 1])] [0, 1]) (-1) 1,
    -- 1830: del x194
    .del 176,
    -- 1831: x454 = np.zeros((nocc[0], nocc[1], nvir[0], nvir[1]), dtype=types[float])
    .zeros 180 [0, 4, 1, 5],
    -- 1832: x454 += einsum("iajb,jkcb->ikac", v.aabb.ovov, x35)
    .add 180 (.ein [(17, [0, 1, 2, 3]), (169, [2, 4, 5, 3])] [0, 4, 1, 5]) 1 1,
    -- 1833: x455 += einsum("ijab->ijab", x454) * -1
    .add 126 (.ein [(180, [0, 1, 2, 3])] [0, 1, 2, 3]) (-1) 1,
    -- 1834: del x454
    .del 180,
    -- 1835: x36 = np.zeros((nocc[0], nocc[1], nocc[1], nvir[0]), dtype=types[float])
    .zeros 181 [0, 4, 4, 1],
    -- 1836: x36 += einsum("ia,jbka->jikb", t1.bb, v.aabb.ovov)
    .add 181 (.ein [(11, [0, 1]), (17, [2, 3, 4, 1])] [2, 0, 4, 3]) 1 1,
    -- 1837: x37 = np.zeros((nocc[0], nocc[1], nocc[1], nvir[0]), dtype=types[float])
    .zeros 182 [0, 4, 4, 1],
    -- 1838: x37 += einsum("ijka->ikja", x36)
    .add 182 (.ein [(181, [0, 1, 2, 3])] [0, 2, 1, 3]) 1 1,
    -- 1839: x41 = np.zeros((nocc[0], nocc[1], nocc[1], nvir[0]), dtype=types[float])
    .zeros 183 [0, 4, 4, 1],
    -- 1840: x41 += einsum("ijka->ikja", x36)
    .add 183 (.ein [(181, [0, 1, 2, 3])] [0, 2, 1, 3]) 1 1,
    -- 1841: x304 = np.zeros((nocc[0], nocc[0], nvir[0], nvir[0]), dtype=types[float])
    .zeros 184 [0, 0, 1, 1],
    -- 1842: x304 += einsum("ijka,ljkb->ilab", x1, x36)
    .add 184 (.ein [(79, [0, 1, 2, 3]), (181, [4, 1, 2, 5])] [0, 4, 3, 5]) 1 1,
    -- 1843: x342 -= einsum("ijab->ijab", x304)
    .add 90 (.ein [(184, [0, 1, 2, 3])] [0, 1, 2, 3]) (-1) 1,
    -- 1844: del x304
    .del 184,
    -- 1845: x510 = np.zeros((nocc[0], nocc[1], nocc[1], nvir[0]), dtype=types[float])
    .zeros 185 [0, 4, 4, 1],
    -- 1846: x510 += einsum("ijka->ikja", x36)
    .add 185 (.ein [(181, [0, 1, 2, 3])] [0, 2, 1, 3]) 1 1,
    -- 1847: x37 += einsum("iajk->ijka", v.aabb.ovoo)
    .add 182 (.ein [(13, [0, 1, 2, 3])] [0, 2, 3, 1]) 1 1,
    -- 1848: x46 += einsum("ijab,kjla->kilb", t2.abab, x37) * -1
    .add 168 (.ein [(9, [0, 1, 2, 3]), (182, [4, 1, 5, 2])] [4, 0, 5, 3]) (-1) 1,
    -- 1849: x132 = np.zeros((nocc[1], nvir[1]), dtype=types[float])
    .zeros 186 [4, 5],
    -- 1850: x132 += einsum("ijab,ijka->kb", t2.abab, x37)
    .add 186 (.ein [(9, [0, 1, 2, 3]), (182, [0, 1, 4, 2])] [4, 3]) 1 1,
    -- 1851: x158 += einsum("ia->ia", x132) * -1
    .add 171 (.ein [(186, [0, 1])] [0, 1]) (-1) 1,
    -- 1852: del x132
    .del 186,
    -- 1853: x242 = np.zeros((nocc[1], nocc[1], nocc[1], nvir[1]), dtype=types[float])
    .zeros 187 [4, 4, 4, 5],
    -- 1854: x242 += einsum("ijab,ikla->jklb", t2.abab, x37)
    .add 187 (.ein [(9, [0, 1, 2, 3]), (182, [0, 4, 5, 2])] [1, 4, 5, 3]) 1 1,
    -- 1855: x246 = np.zeros((nocc[1], nocc[1], nocc[1], nvir[1]), dtype=types[float])
    .zeros 188 [4, 4, 4, 5],
    -- 1856: x246 += einsum("ijka->kjia", x242)
    .add 188 (.ein [(187, [0, 1, 2, 3])] [2, 1, 0, 3]) 1 1,
    -- 1857: x257 = np.zeros((nocc[1], nocc[1], nocc[1], nvir[1]), dtype=types[float])
    .zeros 189 [4, 4, 4, 5],
    -- 1858: x257 += einsum("ijka->kjia", x242)
    .add 189 (.ein [(187, [0, 1, 2, 3])] [2, 1, 0, 3]) 1 1,
    -- 1859: del x242
    .del 187,
    -- 1860: x250 += einsum("ijab,iklb->jkla", x24, x37) * -1
    .add 159 (.ein [(142, [0, 1, 2, 3]), (182, [0, 4, 5, 3])] [1, 4, 5, 2]) (-1) 1,
    -- 1861: x473 = np.zeros((nocc[0], nocc[0], nocc[1], nocc[1]), dtype=types[float])
    .zeros 190 [0, 0, 4, 4],
    -- 1862: x473 += einsum("ia,jkla->ijkl", t1.aa, x37)
    .add 190 (.ein [(12, [0, 1]), (182, [2, 3, 4, 1])] [0, 2, 3, 4]) 1 1,
    -- 1863: x474 = np.zeros((nocc[0], nocc[0], nocc[1], nocc[1]), dtype=types[float])
    .zeros 191 [0, 0, 4, 4],
    -- 1864: x474 += einsum("ijkl->jikl", x473)
    .add 191 (.ein [(190, [0, 1, 2, 3])] [1, 0, 2, 3]) 1 1,
    -- 1865: del x473
    .del 190,
    -- 1866: x38 += einsum("ia->ia", f.aa.ov)
    .add 103 (.ein [(20, [0, 1])] [0, 1]) 1 1,
    -- 1867: x46 += einsum("ia,jkab->ijkb", x38, t2.abab)
    .add 168 (.ein [(103, [0, 1]), (9, [2, 3, 1, 4])] [0, 2, 3, 4]) 1 1,
    -- 1868: x89 = np.zeros((nocc[0], nvir[0]), dtype=types[float])
    .zeros 192 [0, 1],
    -- 1869: x89 += einsum("ia,ijba->jb", x38, x24)
    .add 192 (.ein [(103, [0, 1]), (142, [0, 2, 3, 1])] [2, 3]) 1 1,
    -- 1870: x120 += einsum("ia->ia", x89) * -1
    .add 149 (.ein [(192, [0, 1])] [0, 1]) (-1) 1,
    -- 1871: del x89
    .del 192,
    -- 1872: x107 = np.zeros((nocc[0], nocc[0]), dtype=types[float])
    .zeros 193 [0, 0],
    -- 1873: x107 += einsum("ia,ja->ij", t1.aa, x38)
    .add 193 (.ein [(12, [0, 1]), (103, [2, 1])] [0, 2]) 1 1,
    -- 1874: x108 += einsum("ij->ji", x107)
    .add 151 (.ein [(193, [0, 1])] [1, 0]) 1 1,
    -- 1875: del x107
    .del 193,
    -- 1876: x134 = np.zeros((nocc[1], nvir[1]), dtype=types[float])
    .zeros 194 [4, 5],
    -- 1877: x134 += einsum("ia,ijab->jb", x38, t2.abab)
    .add 194 (.ein [(103, [0, 1]), (9, [0, 2, 1, 3])] [2, 3]) 1 1,
    -- 1878: x158 += einsum("ia->ia", x134)
    .add 171 (.ein [(194, [0, 1])] [0, 1]) 1 1,
    -- 1879: del x134
    .del 194,
    -- 1880: x200 = np.zeros((nbos, nocc[0], nocc[0]), dtype=types[float])
    .zeros 195 [2, 0, 0],
    -- 1881: x200 += einsum("ia,wja->wij", x38, u11.aa)
    .add 195 (.ein [(103, [0, 1]), (25, [2, 3, 1])] [2, 0, 3]) 1 1,
    -- 1882: x216 = np.zeros((nbos), dtype=types[float])
    .zeros 196 [2],
    -- 1883: x216 += einsum("ia,wia->w", x38, u11.aa)
    .add 196 (.ein [(103, [0, 1]), (25, [2, 0, 1])] [2]) 1 1,
    -- 1884: x219 = np.zeros((nbos), dtype=types[float])
    .zeros 197 [2],
    -- 1885: x219 += einsum("w->w", x216)
    .add 197 (.ein [(196, [0])] [0]) 1 1,
    -- 1886: del x216
    .del 196,
    -- 1887: lu11new_aa = np.zeros((nbos, nvir[0], nocc[0]), dtype=types[float])
    .zeros 198 [2, 1, 0],
    -- 1888: lu11new_aa += einsum("w,ia->wai", ls1, x38) * 2
    .add 198 (.ein [(34, [0]), (103, [1, 2])] [0, 2, 1]) 2 1,
    -- 1889: x39 = np.zeros((nocc[0], nocc[0], nocc[1], nocc[1]), dtype=types[float])
    .zeros 199 [0, 0, 4, 4],
    -- 1890: x39 += einsum("ia,jkla->jkil", t1.bb, v.aabb.ooov)
    .add 199 (.ein [(11, [0, 1]), (14, [2, 3, 4, 1])] [2, 3, 0, 4]) 1 1,
    -- 1891: x43 = np.zeros((nocc[0], nocc[0], nocc[1], nocc[1]), dtype=types[float])
    .zeros 200 [0, 0, 4, 4],
    -- 1892: x43 += einsum("ijkl->ijlk", x39)
    .add 200 (.ein [(199, [0, 1, 2, 3])] [0, 1, 3, 2]) 1 1,
    -- 1893: x474 += einsum("ijkl->ijlk", x39)
    .add 191 (.ein [(199, [0, 1, 2, 3])] [0, 1, 3, 2]) 1 1,
    -- 1894: del x39
    .del 199,
    -- 1895: x40 = np.zeros((nocc[0], nocc[0], nocc[1], nocc[1]), dtype=types[float])
    .zeros 201 [0, 0, 4, 4],
    -- 1896: x40 += einsum("ijab,kalb->ikjl", t2.abab, v.aabb.ovov)
    .add 201 (.ein [(9, [0, 1, 2, 3]), (17, [4, 2, 5, 3])] [0, 4, 1, 5]) 1 1,
    -- 1897: x43 += einsum("ijkl->jilk", x40)
    .add 200 (.ein [(201, [0, 1, 2, 3])] [1, 0, 3, 2]) 1 1,
    -- 1898: x474 += einsum("ijkl->jilk", x40)
    .add 191 (.ein [(201, [0, 1, 2, 3])] [1, 0, 3, 2]) 1 1,
    -- 1899: del x40
    .del 201,
    -- 1900: x41 += einsum("iajk->ijka", v.aabb.ovoo)
    .add 183 (.ein [(13, [0, 1, 2, 3])] [0, 2, 3, 1]) 1 1,
    -- 1901: x42 = np.zeros((nocc[0], nocc[0], nocc[1], nocc[1]), dtype=types[float])
    .zeros 202 [0, 0, 4, 4],
    -- 1902: x42 += einsum("ia,jkla->ijkl", t1.aa, x41)
    .add 202 (.ein [(12, [0, 1]), (183, [2, 3, 4, 1])] [0, 2, 3, 4]) 1 1,
    -- 1903: del x41
    .del 183,
    -- 1904: x43 += einsum("ijkl->jikl", x42)
    .add 200 (.ein [(202, [0, 1, 2, 3])] [1, 0, 2, 3]) 1 1,
    -- 1905: del x42
    .del 202,
    -- 1906: x43 += einsum("ijkl->ijkl", v.aabb.oooo)
    .add 200 (.ein [(35, [0, 1, 2, 3])] [0, 1, 2, 3]) 1 1,
    -- 1907: x46 += einsum("ia,jkil->jkla", t1.bb, x43) * -1
    .add 168 (.ein [(11, [0, 1]), (200, [2, 3, 0, 4])] [2, 3, 4, 1]) (-1) 1,
    -- 1908: x250 += einsum("ia,ijkl->jkla", t1.aa, x43) * -1
    .add 159 (.ein [(12, [0, 1]), (200, [0, 2, 3, 4])] [2, 3, 4, 1]) (-1) 1,
    -- 1909: del x43
    .del 200,
    -- 1910: x44 = np.zeros((nocc[0], nocc[1], nvir[0], nvir[1]), dtype=types[float])
    .zeros 203 [0, 4, 1, 5],
    -- 1911: x44 += einsum("ia,jbca->jibc", t1.bb, v.aabb.ovvv)
    .add 203 (.ein [(11, [0, 1]), (10, [2, 3, 4, 1])] [2, 0, 3, 4]) 1 1,
    -- 1912: x45 = np.zeros((nocc[0], nocc[1], nvir[0], nvir[1]), dtype=types[float])
    .zeros 204 [0, 4, 1, 5],
    -- 1913: x45 += einsum("ijab->ijab", x44)
    .add 204 (.ein [(203, [0, 1, 2, 3])] [0, 1, 2, 3]) 1 1,
    -- 1914: x311 = np.zeros((nocc[0], nocc[1], nvir[0], nvir[1]), dtype=types[float])
    .zeros 205 [0, 4, 1, 5],
    -- 1915: x311 += einsum("ijab->ijab", x44)
    .add 205 (.ein [(203, [0, 1, 2, 3])] [0, 1, 2, 3]) 1 1,
    -- 1916: x455 += einsum("ijab->ijab", x44)
    .add 126 (.ein [(203, [0, 1, 2, 3])] [0, 1, 2, 3]) 1 1,
    -- 1917: del x44
    .del 203,
    -- 1918: x45 += einsum("iabj->ijab", v.aabb.ovvo)
    .add 204 (.ein [(36, [0, 1, 2, 3])] [0, 3, 1, 2]) 1 1,
    -- 1919: x46 += einsum("ia,jkab->jikb", t1.aa, x45)
    .add 168 (.ein [(12, [0, 1]), (204, [2, 3, 1, 4])] [2, 0, 3, 4]) 1 1,
    -- 1920: x46 += einsum("ijak->ijka", v.aabb.oovo)
    .add 168 (.ein [(37, [0, 1, 2, 3])] [0, 1, 3, 2]) 1 1,
    -- 1921: x46 += einsum("ia,jkba->jkib", t1.bb, v.aabb.oovv)
    .add 168 (.ein [(11, [0, 1]), (38, [2, 3, 4, 1])] [2, 3, 0, 4]) 1 1,
    -- 1922: x46 += einsum("ijab,kacb->kijc", t2.abab, v.aabb.ovvv)
    .add 168 (.ein [(9, [0, 1, 2, 3]), (10, [4, 2, 5, 3])] [4, 0, 1, 5]) 1 1,
    -- 1923: l1new_aa += einsum("abij,kijb->ak", l2.abab, x46) * -1
    .add 78 (.ein [(8, [0, 1, 2, 3]), (168, [4, 2, 3, 1])] [0, 4]) (-1) 1,
    -- 1924: del x46
    .del 168,
    -- 1925: x47 = np.zeros((nocc[0], nocc[0], nvir[0], nvir[0]), dtype=types[float])
    .zeros 206 [0, 0, 1, 1],
    -- 1926: x47 += einsum("abij,kjcb->ikac", l2.abab, t2.abab)
    .add 206 (.ein [(8, [0, 1, 2, 3]), (9, [4, 3, 5, 1])] [2, 4, 0, 5]) 1 1,
    -- 1927: x50 = np.zeros((nocc[0], nocc[0], nvir[0], nvir[0]), dtype=types[float])
    .zeros 207 [0, 0, 1, 1],
    -- 1928: x50 += einsum("ijab->ijab", x47)
    .add 207 (.ein [(206, [0, 1, 2, 3])] [0, 1, 2, 3]) 1 1,
    -- 1929: x349 = np.zeros((nocc[0], nocc[0], nvir[0], nvir[0]), dtype=types[float])
    .zeros 208 [0, 0, 1, 1],
    -- 1930: x349 += einsum("ijab,kica->kjcb", x13, x47)
    .add 208 (.ein [(117, [0, 1, 2, 3]), (206, [4, 0, 5, 2])] [4, 1, 5, 3]) 1 1,
    -- 1931: del x47
    .del 206,
    -- 1932: x362 = np.zeros((nocc[0], nocc[0], nvir[0], nvir[0]), dtype=types[float])
    .zeros 209 [0, 0, 1, 1],
    -- 1933: x362 += einsum("ijab->ijab", x349) * -1
    .add 209 (.ein [(208, [0, 1, 2, 3])] [0, 1, 2, 3]) (-1) 1,
    -- 1934: del x349
    .del 208,
    -- 1935: x48 = np.zeros((nocc[0], nocc[0], nvir[0], nvir[0]), dtype=types[float])
    .zeros 210 [0, 0, 1, 1],
    -- 1936: x48 += einsum("abij->jiab", l2.aaaa)
    .add 210 (.ein [(26, [0, 1, 2, 3])] [3, 2, 0, 1]) 1 1,
    -- 1937: x48 += einsum("abij->jiba", l2.aaaa) * -1
    .add 210 (.ein [(26, [0, 1, 2, 3])] [3, 2, 1, 0]) (-1) 1,
    -- 1938: x55 += einsum("ijab,ikca->kjcb", t2.abab, x48) * -1
    .add 84 (.ein [(9, [0, 1, 2, 3]), (210, [0, 4, 5, 2])] [4, 1, 5, 3]) (-1) 1,
    -- 1939: x49 = np.zeros((nocc[0], nocc[0], nvir[0], nvir[0]), dtype=types[float])
    .zeros 211 [0, 0, 1, 1],
    -- 1940: x49 += einsum("ijab->jiab", t2.aaaa)
    .add 211 (.ein [(21, [0, 1, 2, 3])] [1, 0, 2, 3]) 1 1,
    -- 1941: x49 += einsum("ijab->jiba", t2.aaaa) * -1
    .add 211 (.ein [(21, [0, 1, 2, 3])] [1, 0, 3, 2]) (-1) 1,
    -- 1942: x50 += einsum("ijab,ikac->jkbc", x48, x49)
    .add 207 (.ein [(210, [0, 1, 2, 3]), (211, [0, 4, 2, 5])] [1, 4, 3, 5]) 1 1,
    -- 1943: x165 = np.zeros((nocc[0], nvir[0]), dtype=types[float])
    .zeros 212 [0, 1],
    -- 1944: x165 += einsum("ai,ijba->jb", l1.aa, x49)
    .add 212 (.ein [(18, [0, 1]), (211, [1, 2, 3, 0])] [2, 3]) 1 1,
    -- 1945: x169 = np.zeros((nocc[0], nvir[0]), dtype=types[float])
    .zeros 213 [0, 1],
    -- 1946: x169 += einsum("ia->ia", x165) * -1
    .add 213 (.ein [(212, [0, 1])] [0, 1]) (-1) 1,
    -- 1947: del x165
    .del 212,
    -- 1948: x174 = np.zeros((nvir[0], nvir[0]), dtype=types[float])
    .zeros 214 [1, 1],
    -- 1949: x174 += einsum("abij,ijcb->ac", l2.aaaa, x49)
    .add 214 (.ein [(26, [0, 1, 2, 3]), (211, [2, 3, 4, 1])] [0, 4]) 1 1,
    -- 1950: x175 = np.zeros((nvir[0], nvir[0]), dtype=types[float])
    .zeros 215 [1, 1],
    -- 1951: x175 += einsum("ab->ab", x174) * -1
    .add 215 (.ein [(214, [0, 1])] [0, 1]) (-1) 1,
    -- 1952: x358 = np.zeros((nvir[0], nvir[0]), dtype=types[float])
    .zeros 216 [1, 1],
    -- 1953: x358 += einsum("ab->ab", x174) * -1
    .add 216 (.ein [(214, [0, 1])] [0, 1]) (-1) 1,
    -- 1954: x494 = np.zeros((nvir[0], nvir[0]), dtype=types[float])
    .zeros 217 [1, 1],
    -- 1955: x494 += einsum("ab->ab", x174) * -1
    .add 217 (.ein [(214, [0, 1])] [0, 1]) (-1) 1,
    -- 1956: del x174
    .del 214,
    -- 1957: x259 = np.zeros((nocc[0], nocc[1], nvir[0], nvir[1]), dtype=types[float])
    .zeros 218 [0, 4, 1, 5],
    -- 1958: x259 += einsum("abij,ikca->kjcb", l2.abab, x49) * -1
    .add 218 (.ein [(8, [0, 1, 2, 3]), (211, [2, 4, 5, 0])] [4, 3, 5, 1]) (-1) 1,
    -- 1959: x267 += einsum("ijka,ilba->ljkb", x1, x49) * -1
    .add 95 (.ein [(79, [0, 1, 2, 3]), (211, [0, 4, 5, 3])] [4, 1, 2, 5]) (-1) 1,
    -- 1960: x344 = np.zeros((nocc[0], nocc[0], nvir[0], nvir[0]), dtype=types[float])
    .zeros 219 [0, 0, 1, 1],
    -- 1961: x344 += einsum("ijab,ikca->jkbc", x13, x49)
    .add 219 (.ein [(117, [0, 1, 2, 3]), (211, [0, 4, 5, 2])] [1, 4, 3, 5]) 1 1,
    -- 1962: del x13
    .del 117,
    -- 1963: x345 = np.zeros((nocc[0], nocc[0], nvir[0], nvir[0]), dtype=types[float])
    .zeros 220 [0, 0, 1, 1],
    -- 1964: x345 += einsum("ijab->jiba", x344)
    .add 220 (.ein [(219, [0, 1, 2, 3])] [1, 0, 3, 2]) 1 1,
    -- 1965: del x344
    .del 219,
    -- 1966: x350 = np.zeros((nocc[0], nocc[0]), dtype=types[float])
    .zeros 221 [0, 0],
    -- 1967: x350 += einsum("iajb,ikab->kj", v.aaaa.ovov, x49)
    .add 221 (.ein [(24, [0, 1, 2, 3]), (211, [0, 4, 1, 3])] [4, 2]) 1 1,
    -- 1968: x352 += einsum("ij->ij", x350) * -1
    .add 121 (.ein [(221, [0, 1])] [0, 1]) (-1) 1,
    -- 1969: del x350
    .del 221,
    -- 1970: x355 = np.zeros((nvir[0], nvir[0]), dtype=types[float])
    .zeros 222 [1, 1],
    -- 1971: x355 += einsum("iajb,ijac->cb", v.aaaa.ovov, x49)
    .add 222 (.ein [(24, [0, 1, 2, 3]), (211, [0, 2, 1, 4])] [4, 3]) 1 1,
    -- 1972: x356 = np.zeros((nvir[0], nvir[0]), dtype=types[float])
    .zeros 223 [1, 1],
    -- 1973: x356 += einsum("ab->ab", x355) * -1
    .add 223 (.ein [(222, [0, 1])] [0, 1]) (-1) 1,
    -- 1974: del x355
    .del 222,
    -- 1975: x486 = np.zeros((nvir[0], nvir[0]), dtype=types[float])
    .zeros 224 [1, 1],
    -- 1976: x486 += einsum("iajb,ijca->cb", v.aaaa.ovov, x49)
    .add 224 (.ein [(24, [0, 1, 2, 3]), (211, [0, 2, 4, 1])] [4, 3]) 1 1,
    -- 1977: x487 = np.zeros((nvir[0], nvir[0]), dtype=types[float])
    .zeros 225 [1, 1],
    -- 1978: x487 += einsum("ab->ab", x486) * -1
    .add 225 (.ein [(224, [0, 1])] [0, 1]) (-1) 1,
    -- 1979: del x486
    .del 224,
    -- 1980: x51 = np.zeros((nocc[0], nvir[0], nvir[0], nvir[0]), dtype=types[float])
    .zeros 226 [0, 1, 1, 1],
    -- 1981: x51 += einsum("iabc->ibca", v.aaaa.ovvv) * -1
    .add 226 (.ein [(23, [0, 1, 2, 3])] [0, 2, 3, 1]) (-1) 1,
    -- 1982: x51 += einsum("iabc->ibac", v.aaaa.ovvv)
    .add 226 (.ein [(23, [0, 1, 2, 3])] [0, 2, 1, 3]) 1 1,
    -- 1983: x458 = np.zeros((nocc[0], nocc[0], nvir[0], nvir[0]), dtype=types[float])
    .zeros 227 [0, 0, 1, 1],
    -- 1984: x458 += einsum("ia,jbac->ijbc", t1.aa, x51)
    .add 227 (.ein [(12, [0, 1]), (226, [2, 3, 1, 4])] [0, 2, 3, 4]) 1 1,
    -- 1985: x459 = np.zeros((nocc[0], nocc[0], nvir[0], nvir[0]), dtype=types[float])
    .zeros 228 [0, 0, 1, 1],
    -- 1986: x459 += einsum("ijab->jiab", x458) * -1
    .add 228 (.ein [(227, [0, 1, 2, 3])] [1, 0, 2, 3]) (-1) 1,
    -- 1987: del x458
    .del 227,
    -- 1988: l1new_aa += einsum("ijab,jabc->ci", x50, x51)
    .add 78 (.ein [(207, [0, 1, 2, 3]), (226, [1, 2, 3, 4])] [4, 0]) 1 1,
    -- 1989: del x50
    .del 207,
    -- 1990: x54 = np.zeros((nocc[1], nocc[1], nvir[1], nvir[1]), dtype=types[float])
    .zeros 229 [4, 4, 5, 5],
    -- 1991: x54 += einsum("ijab->jiab", t2.bbbb)
    .add 229 (.ein [(31, [0, 1, 2, 3])] [1, 0, 2, 3]) 1 1,
    -- 1992: x54 += einsum("ijab->jiba", t2.bbbb) * -1
    .add 229 (.ein [(31, [0, 1, 2, 3])] [1, 0, 3, 2]) (-1) 1,
    -- 1993: x55 += einsum("abij,jkcb->ikac", l2.abab, x54) * -1
    .add 84 (.ein [(8, [0, 1, 2, 3]), (229, [3, 4, 5, 1])] [2, 4, 0, 5]) (-1) 1,
    -- 1994: l1new_aa += einsum("iabc,jiba->cj", v.bbaa.ovvv, x55) * -1
    .add 78 (.ein [(15, [0, 1, 2, 3]), (84, [4, 0, 2, 1])] [3, 4]) (-1) 1,
    -- 1995: del x55
    .del 84,
    -- 1996: x183 = np.zeros((nocc[1], nvir[1]), dtype=types[float])
    .zeros 230 [4, 5],
    -- 1997: x183 += einsum("ai,ijba->jb", l1.bb, x54)
    .add 230 (.ein [(39, [0, 1]), (229, [1, 2, 3, 0])] [2, 3]) 1 1,
    -- 1998: x190 += einsum("ia->ia", x183) * -1
    .add 87 (.ein [(230, [0, 1])] [0, 1]) (-1) 1,
    -- 1999: del x183
    .del 230,
    -- 2000: x56 = np.zeros((nocc[0], nocc[0], nocc[1], nvir[1]), dtype=types[float])
    .zeros 231 [0, 0, 4, 5],
    -- 2001: x56 += einsum("ia,abjk->jikb", t1.aa, l2.abab)
    .add 231 (.ein [(12, [0, 1]), (8, [1, 2, 3, 4])] [3, 0, 4, 2]) 1 1,
    -- 2002: x62 = np.zeros((nocc[0], nocc[0], nocc[0], nvir[0]), dtype=types[float])
    .zeros 232 [0, 0, 0, 1],
    -- 2003: x62 += einsum("ijab,kljb->klia", t2.abab, x56)
    .add 232 (.ein [(9, [0, 1, 2, 3]), (231, [4, 5, 1, 3])] [4, 5, 0, 2]) 1 1,
    -- 2004: x69 += einsum("ijab,klib->klja", x54, x56) * -1
    .add 85 (.ein [(229, [0, 1, 2, 3]), (231, [4, 5, 0, 3])] [4, 5, 1, 2]) (-1) 1,
    -- 2005: x163 = np.zeros((nocc[0], nvir[0]), dtype=types[float])
    .zeros 233 [0, 1],
    -- 2006: x163 += einsum("ijab,ikjb->ka", t2.abab, x56)
    .add 233 (.ein [(9, [0, 1, 2, 3]), (231, [0, 4, 1, 3])] [4, 2]) 1 1,
    -- 2007: x169 += einsum("ia->ia", x163)
    .add 213 (.ein [(233, [0, 1])] [0, 1]) 1 1,
    -- 2008: del x163
    .del 233,
    -- 2009: x259 += einsum("ia,ijkb->jkab", t1.aa, x56)
    .add 218 (.ein [(12, [0, 1]), (231, [0, 2, 3, 4])] [2, 3, 1, 4]) 1 1,
    -- 2010: x267 += einsum("ijab,iklb->klja", t2.abab, x56)
    .add 95 (.ein [(9, [0, 1, 2, 3]), (231, [0, 4, 5, 3])] [4, 5, 1, 2]) 1 1,
    -- 2011: x374 = np.zeros((nocc[1], nocc[1], nvir[1], nvir[1]), dtype=types[float])
    .zeros 234 [4, 4, 5, 5],
    -- 2012: x374 += einsum("ijka,jilb->lkba", v.aabb.ooov, x56)
    .add 234 (.ein [(14, [0, 1, 2, 3]), (231, [1, 0, 4, 5])] [4, 2, 5, 3]) 1 1,
    -- 2013: x415 = np.zeros((nocc[1], nocc[1], nvir[1], nvir[1]), dtype=types[float])
    .zeros 235 [4, 4, 5, 5],
    -- 2014: x415 -= einsum("ijab->ijab", x374)
    .add 235 (.ein [(234, [0, 1, 2, 3])] [0, 1, 2, 3]) (-1) 1,
    -- 2015: del x374
    .del 234,
    -- 2016: x377 = np.zeros((nocc[1], nocc[1], nvir[1], nvir[1]), dtype=types[float])
    .zeros 236 [4, 4, 5, 5],
    -- 2017: x377 += einsum("ijka,ijlb->lkba", x26, x56)
    .add 236 (.ein [(154, [0, 1, 2, 3]), (231, [0, 1, 4, 5])] [4, 2, 5, 3]) 1 1,
    -- 2018: x415 -= einsum("ijab->ijab", x377)
    .add 235 (.ein [(236, [0, 1, 2, 3])] [0, 1, 2, 3]) (-1) 1,
    -- 2019: del x377
    .del 236,
    -- 2020: x446 = np.zeros((nocc[0], nocc[1], nvir[0], nvir[1]), dtype=types[float])
    .zeros 237 [0, 4, 1, 5],
    -- 2021: x446 += einsum("iabc,jikb->jkac", v.aabb.ovvv, x56)
    .add 237 (.ein [(10, [0, 1, 2, 3]), (231, [4, 0, 5, 2])] [4, 5, 1, 3]) 1 1,
    -- 2022: l2new_baba -= einsum("ijab->baji", x446)
    .add 92 (.ein [(237, [0, 1, 2, 3])] [3, 2, 1, 0]) (-1) 1,
    -- 2023: l2new_abab -= einsum("ijab->abij", x446)
    .add 93 (.ein [(237, [0, 1, 2, 3])] [2, 3, 0, 1]) (-1) 1,
    -- 2024: del x446
    .del 237,
    -- 2025: x479 = np.zeros((nocc[0], nocc[1], nvir[0], nvir[1]), dtype=types[float])
    .zeros 238 [0, 4, 1, 5],
    -- 2026: x479 += einsum("ijka,likb->ljab", x37, x56)
    .add 238 (.ein [(182, [0, 1, 2, 3]), (231, [4, 0, 2, 5])] [4, 1, 3, 5]) 1 1,
    -- 2027: del x37
    .del 182,
    -- 2028: l2new_baba += einsum("ijab->baji", x479)
    .add 92 (.ein [(238, [0, 1, 2, 3])] [3, 2, 1, 0]) 1 1,
    -- 2029: l2new_abab += einsum("ijab->abij", x479)
    .add 93 (.ein [(238, [0, 1, 2, 3])] [2, 3, 0, 1]) 1 1,
    -- 2030: del x479
    .del 238,
    -- 2031: x500 = np.zeros((nocc[0], nocc[1], nvir[0], nvir[1]), dtype=types[float])
    .zeros 239 [0, 4, 1, 5],
    -- 2032: x500 += einsum("ia,jikb->jkab", x38, x56)
    .add 239 (.ein [(103, [0, 1]), (231, [2, 0, 3, 4])] [2, 3, 1, 4]) 1 1,
    -- 2033: del x38
    .del 103,
    -- 2034: l2new_baba += einsum("ijab->baji", x500) * -1
    .add 92 (.ein [(239, [0, 1, 2, 3])] [3, 2, 1, 0]) (-1) 1,
    -- 2035: l2new_abab += einsum("ijab->abij", x500) * -1
    .add 93 (.ein [(239, [0, 1, 2, 3])] [2, 3, 0, 1]) (-1) 1,
    -- 2036: del x500
    .del 239,
    -- 2037: l1new_aa += einsum("ijab,kijb->ak", x45, x56) * -1
    .add 78 (.ein [(204, [0, 1, 2, 3]), (231, [4, 0, 1, 3])] [2, 4]) (-1) 1,
    -- 2038: del x45
    .del 204,
    -- 2039: l1new_bb -= einsum("ijab,jika->bk", v.aabb.oovv, x56)
    .add 83 (.ein [(38, [0, 1, 2, 3]), (231, [1, 0, 4, 2])] [3, 4]) (-1) 1,
    -- 2040: l2new_baba += einsum("ijka,iklb->balj", x347, x56) * -1
    .add 92 (.ein [(140, [0, 1, 2, 3]), (231, [0, 2, 4, 5])] [5, 3, 4, 1]) (-1) 1,
    -- 2041: l2new_abab += einsum("ijka,iklb->abjl", x514, x56)
    .add 93 (.ein [(141, [0, 1, 2, 3]), (231, [0, 2, 4, 5])] [3, 5, 1, 4]) 1 1,
    -- 2042: del x514
    .del 141,
    -- 2043: x57 = np.zeros((nocc[0], nocc[0], nocc[0], nvir[0]), dtype=types[float])
    .zeros 240 [0, 0, 0, 1],
    -- 2044: x57 += einsum("ia,abjk->kjib", t1.aa, l2.aaaa)
    .add 240 (.ein [(12, [0, 1]), (26, [1, 2, 3, 4])] [4, 3, 0, 2]) 1 1,
    -- 2045: x58 = np.zeros((nocc[0], nocc[0], nocc[0], nvir[0]), dtype=types[float])
    .zeros 241 [0, 0, 0, 1],
    -- 2046: x58 += einsum("ijka->ijka", x57)
    .add 241 (.ein [(240, [0, 1, 2, 3])] [0, 1, 2, 3]) 1 1,
    -- 2047: x58 += einsum("ijka->jika", x57) * -1
    .add 241 (.ein [(240, [0, 1, 2, 3])] [1, 0, 2, 3]) (-1) 1,
    -- 2048: x62 += einsum("ijab,iklb->klja", x49, x58)
    .add 232 (.ein [(211, [0, 1, 2, 3]), (241, [0, 4, 5, 3])] [4, 5, 1, 2]) 1 1,
    -- 2049: x64 = np.zeros((nocc[0], nocc[0], nvir[0], nvir[0]), dtype=types[float])
    .zeros 242 [0, 0, 1, 1],
    -- 2050: x64 += einsum("ia,ijkb->jkba", t1.aa, x58) * -1
    .add 242 (.ein [(12, [0, 1]), (241, [0, 2, 3, 4])] [2, 3, 4, 1]) (-1) 1,
    -- 2051: l1new_aa += einsum("iabc,jiac->bj", x51, x64)
    .add 78 (.ein [(226, [0, 1, 2, 3]), (242, [4, 0, 1, 3])] [2, 4]) 1 1,
    -- 2052: del x64
    .del 242,
    -- 2053: x69 += einsum("ijab,ikla->kljb", t2.abab, x58) * -1
    .add 85 (.ein [(9, [0, 1, 2, 3]), (241, [0, 4, 5, 2])] [4, 5, 1, 3]) (-1) 1,
    -- 2054: x348 = np.zeros((nocc[0], nocc[0], nvir[0], nvir[0]), dtype=types[float])
    .zeros 243 [0, 0, 1, 1],
    -- 2055: x348 += einsum("ijka,iljb->lkba", x347, x58)
    .add 243 (.ein [(140, [0, 1, 2, 3]), (241, [0, 4, 1, 5])] [4, 2, 5, 3]) 1 1,
    -- 2056: del x58
    .del 241,
    -- 2057: del x347
    .del 140,
    -- 2058: x362 += einsum("ijab->ijab", x348)
    .add 209 (.ein [(243, [0, 1, 2, 3])] [0, 1, 2, 3]) 1 1,
    -- 2059: del x348
    .del 243,
    -- 2060: x71 = np.zeros((nocc[0], nocc[0], nocc[0], nocc[0]), dtype=types[float])
    .zeros 244 [0, 0, 0, 0],
    -- 2061: x71 += einsum("ia,jkla->kjli", t1.aa, x57)
    .add 244 (.ein [(12, [0, 1]), (240, [2, 3, 4, 1])] [3, 2, 4, 0]) 1 1,
    -- 2062: x72 = np.zeros((nocc[0], nocc[0], nocc[0], nvir[0]), dtype=types[float])
    .zeros 245 [0, 0, 0, 1],
    -- 2063: x72 += einsum("ia,ijkl->jlka", t1.aa, x71)
    .add 245 (.ein [(12, [0, 1]), (244, [0, 2, 3, 4])] [2, 4, 3, 1]) 1 1,
    -- 2064: x73 = np.zeros((nocc[0], nocc[0], nocc[0], nvir[0]), dtype=types[float])
    .zeros 246 [0, 0, 0, 1],
    -- 2065: x73 += einsum("ijka->ijka", x72)
    .add 246 (.ein [(245, [0, 1, 2, 3])] [0, 1, 2, 3]) 1 1,
    -- 2066: del x72
    .del 245,
    -- 2067: x122 = np.zeros((nocc[0], nocc[0], nocc[0], nocc[0]), dtype=types[float])
    .zeros 247 [0, 0, 0, 0],
    -- 2068: x122 += einsum("ijkl->ijkl", x71)
    .add 247 (.ein [(244, [0, 1, 2, 3])] [0, 1, 2, 3]) 1 1,
    -- 2069: x122 += einsum("ijkl->ijlk", x71) * -1
    .add 247 (.ein [(244, [0, 1, 2, 3])] [0, 1, 3, 2]) (-1) 1,
    -- 2070: l1new_aa += einsum("ijka,ljki->al", v.aaaa.ooov, x122)
    .add 78 (.ein [(27, [0, 1, 2, 3]), (247, [4, 1, 2, 0])] [3, 4]) 1 1,
    -- 2071: del x122
    .del 247,
    -- 2072: x367 = np.zeros((nocc[0], nocc[0], nvir[0], nvir[0]), dtype=types[float])
    .zeros 248 [0, 0, 1, 1],
    -- 2073: x367 += einsum("iajb,klij->klab", v.aaaa.ovov, x71)
    .add 248 (.ein [(24, [0, 1, 2, 3]), (244, [4, 5, 0, 2])] [4, 5, 1, 3]) 1 1,
    -- 2074: del x71
    .del 244,
    -- 2075: x370 += einsum("ijab->ijab", x367)
    .add 134 (.ein [(248, [0, 1, 2, 3])] [0, 1, 2, 3]) 1 1,
    -- 2076: del x367
    .del 248,
    -- 2077: x75 = np.zeros((nocc[0], nocc[0], nocc[0], nvir[0]), dtype=types[float])
    .zeros 249 [0, 0, 0, 1],
    -- 2078: x75 += einsum("ijka->ijka", x57) * -1
    .add 249 (.ein [(240, [0, 1, 2, 3])] [0, 1, 2, 3]) (-1) 1,
    -- 2079: x75 += einsum("ijka->jika", x57)
    .add 249 (.ein [(240, [0, 1, 2, 3])] [1, 0, 2, 3]) 1 1,
    -- 2080: x481 = np.zeros((nocc[0], nocc[1], nvir[0], nvir[1]), dtype=types[float])
    .zeros 250 [0, 4, 1, 5],
    -- 2081: x481 += einsum("ijka,iljb->lkba", x26, x75)
    .add 250 (.ein [(154, [0, 1, 2, 3]), (249, [0, 4, 1, 5])] [4, 2, 5, 3]) 1 1,
    -- 2082: del x26
    .del 154,
    -- 2083: l2new_baba += einsum("ijab->baji", x481) * -1
    .add 92 (.ein [(250, [0, 1, 2, 3])] [3, 2, 1, 0]) (-1) 1,
    -- 2084: l2new_abab += einsum("ijab->abij", x481) * -1
    .add 93 (.ein [(250, [0, 1, 2, 3])] [2, 3, 0, 1]) (-1) 1,
    -- 2085: del x481
    .del 250,
    -- 2086: l1new_aa += einsum("ijab,jkia->bk", x29, x75)
    .add 78 (.ein [(161, [0, 1, 2, 3]), (249, [1, 4, 0, 2])] [3, 4]) 1 1,
    -- 2087: del x75
    .del 249,
    -- 2088: del x29
    .del 161,
    -- 2089: x164 = np.zeros((nocc[0], nvir[0]), dtype=types[float])
    .zeros 251 [0, 1],
    -- 2090: x164 += einsum("ijab,ijka->kb", x49, x57)
    .add 251 (.ein [(211, [0, 1, 2, 3]), (240, [0, 1, 4, 2])] [4, 3]) 1 1,
    -- 2091: del x49
    .del 211,
    -- 2092: x169 += einsum("ia->ia", x164) * -1
    .add 213 (.ein [(251, [0, 1])] [0, 1]) (-1) 1,
    -- 2093: del x164
    .del 251,
    -- 2094: x302 = np.zeros((nocc[0], nocc[0], nvir[0], nvir[0]), dtype=types[float])
    .zeros 252 [0, 0, 1, 1],
    -- 2095: x302 += einsum("iabc,jkib->kjac", v.aaaa.ovvv, x57)
    .add 252 (.ein [(23, [0, 1, 2, 3]), (240, [4, 5, 0, 2])] [5, 4, 1, 3]) 1 1,
    -- 2096: x342 -= einsum("ijab->ijab", x302)
    .add 90 (.ein [(252, [0, 1, 2, 3])] [0, 1, 2, 3]) (-1) 1,
    -- 2097: del x302
    .del 252,
    -- 2098: x313 = np.zeros((nocc[0], nocc[0], nocc[0], nvir[0]), dtype=types[float])
    .zeros 253 [0, 0, 0, 1],
    -- 2099: x313 += einsum("ijka->ijka", x57)
    .add 253 (.ein [(240, [0, 1, 2, 3])] [0, 1, 2, 3]) 1 1,
    -- 2100: x313 -= einsum("ijka->jika", x57)
    .add 253 (.ein [(240, [0, 1, 2, 3])] [1, 0, 2, 3]) (-1) 1,
    -- 2101: x480 = np.zeros((nocc[0], nocc[1], nvir[0], nvir[1]), dtype=types[float])
    .zeros 254 [0, 4, 1, 5],
    -- 2102: x480 += einsum("ijka,ljib->lkba", v.aabb.ooov, x313)
    .add 254 (.ein [(14, [0, 1, 2, 3]), (253, [4, 1, 0, 5])] [4, 2, 5, 3]) 1 1,
    -- 2103: l2new_baba -= einsum("ijab->baji", x480)
    .add 92 (.ein [(254, [0, 1, 2, 3])] [3, 2, 1, 0]) (-1) 1,
    -- 2104: l2new_abab -= einsum("ijab->abij", x480)
    .add 93 (.ein [(254, [0, 1, 2, 3])] [2, 3, 0, 1]) (-1) 1,
    -- 2105: del x480
    .del 254,
    -- 2106: x361 = np.zeros((nocc[0], nocc[0], nvir[0], nvir[0]), dtype=types[float])
    .zeros 255 [0, 0, 1, 1],
    -- 2107: x361 += einsum("ia,jkib->jkba", x15, x57)
    .add 255 (.ein [(114, [0, 1]), (240, [2, 3, 0, 4])] [2, 3, 4, 1]) 1 1,
    -- 2108: del x15
    .del 114,
    -- 2109: x362 += einsum("ijab->ijab", x361)
    .add 209 (.ein [(255, [0, 1, 2, 3])] [0, 1, 2, 3]) 1 1,
    -- 2110: del x361
    .del 255,
    -- 2111: x59 = np.zeros((nocc[0], nocc[0]), dtype=types[float])
    .zeros 256 [0, 0],
    -- 2112: x59 += einsum("abij,kjab->ik", l2.abab, t2.abab)
    .add 256 (.ein [(8, [0, 1, 2, 3]), (9, [4, 3, 0, 1])] [2, 4]) 1 1,
    -- 2113: x61 += einsum("ij->ij", x59)
    .add 146 (.ein [(256, [0, 1])] [0, 1]) 1 1,
    -- 2114: x62 += einsum("ia,jk->jkia", t1.aa, x61)
    .add 232 (.ein [(12, [0, 1]), (146, [2, 3])] [2, 3, 0, 1]) 1 1,
    -- 2115: x69 += einsum("ia,jk->jkia", t1.bb, x61) * -1
    .add 85 (.ein [(11, [0, 1]), (146, [2, 3])] [2, 3, 0, 1]) (-1) 1,
    -- 2116: x360 = np.zeros((nocc[0], nocc[0], nvir[0], nvir[0]), dtype=types[float])
    .zeros 257 [0, 0, 1, 1],
    -- 2117: x360 += einsum("ij,jakb->ikab", x61, v.aaaa.ovov)
    .add 257 (.ein [(146, [0, 1]), (24, [1, 2, 3, 4])] [0, 3, 2, 4]) 1 1,
    -- 2118: x362 += einsum("ijab->ijba", x360) * -1
    .add 209 (.ein [(257, [0, 1, 2, 3])] [0, 1, 3, 2]) (-1) 1,
    -- 2119: del x360
    .del 257,
    -- 2120: l1new_aa += einsum("ia,ji->aj", f.aa.ov, x61) * -1
    .add 78 (.ein [(20, [0, 1]), (146, [2, 0])] [1, 2]) (-1) 1,
    -- 2121: del x61
    .del 146,
    -- 2122: x167 += einsum("ij->ij", x59)
    .add 98 (.ein [(256, [0, 1])] [0, 1]) 1 1,
    -- 2123: x209 += einsum("ij->ij", x59)
    .add 147 (.ein [(256, [0, 1])] [0, 1]) 1 1,
    -- 2124: del x59
    .del 256,
    -- 2125: x63 = np.zeros((nocc[0], nocc[0], nvir[0], nvir[0]), dtype=types[float])
    .zeros 258 [0, 0, 1, 1],
    -- 2126: x63 -= einsum("iajb->jiab", v.aaaa.ovov)
    .add 258 (.ein [(24, [0, 1, 2, 3])] [2, 0, 1, 3]) (-1) 1,
    -- 2127: x63 += einsum("iajb->jiba", v.aaaa.ovov)
    .add 258 (.ein [(24, [0, 1, 2, 3])] [2, 0, 3, 1]) 1 1,
    -- 2128: x332 = np.zeros((nbos, nocc[0], nvir[0]), dtype=types[float])
    .zeros 259 [2, 0, 1],
    -- 2129: x332 += einsum("wia,ijba->wjb", u11.aa, x63)
    .add 259 (.ein [(25, [0, 1, 2]), (258, [1, 3, 4, 2])] [0, 3, 4]) 1 1,
    -- 2130: x333 = np.zeros((nbos, nocc[0], nvir[0]), dtype=types[float])
    .zeros 260 [2, 0, 1],
    -- 2131: x333 -= einsum("wia->wia", x332)
    .add 260 (.ein [(259, [0, 1, 2])] [0, 1, 2]) (-1) 1,
    -- 2132: x502 = np.zeros((nbos, nocc[0], nvir[0]), dtype=types[float])
    .zeros 261 [2, 0, 1],
    -- 2133: x502 -= einsum("wia->wia", x332)
    .add 261 (.ein [(259, [0, 1, 2])] [0, 1, 2]) (-1) 1,
    -- 2134: del x332
    .del 259,
    -- 2135: x340 = np.zeros((nocc[0], nvir[0]), dtype=types[float])
    .zeros 262 [0, 1],
    -- 2136: x340 += einsum("ia,ijba->jb", t1.aa, x63)
    .add 262 (.ein [(12, [0, 1]), (258, [0, 2, 3, 1])] [2, 3]) 1 1,
    -- 2137: x341 -= einsum("ia->ia", x340)
    .add 116 (.ein [(262, [0, 1])] [0, 1]) (-1) 1,
    -- 2138: x342 += einsum("ai,jb->ijab", l1.aa, x341)
    .add 90 (.ein [(18, [0, 1]), (116, [2, 3])] [1, 2, 0, 3]) 1 1,
    -- 2139: del x341
    .del 116,
    -- 2140: x512 -= einsum("ia->ia", x340)
    .add 105 (.ein [(262, [0, 1])] [0, 1]) (-1) 1,
    -- 2141: del x340
    .del 262,
    -- 2142: l1new_aa += einsum("ijka,kjab->bi", x62, x63) * -1
    .add 78 (.ein [(232, [0, 1, 2, 3]), (258, [2, 1, 3, 4])] [4, 0]) (-1) 1,
    -- 2143: del x62
    .del 232,
    -- 2144: del x63
    .del 258,
    -- 2145: x65 = np.zeros((nocc[0], nvir[0], nvir[0], nvir[0]), dtype=types[float])
    .zeros 263 [0, 1, 1, 1],
    -- 2146: x65 += einsum("ia,bcda->ibdc", t1.aa, v.aaaa.vvvv)
    .add 263 (.ein [(12, [0, 1]), (40, [2, 3, 4, 1])] [0, 2, 4, 3]) 1 1,
    -- 2147: x66 = np.zeros((nocc[0], nvir[0], nvir[0], nvir[0]), dtype=types[float])
    .zeros 264 [0, 1, 1, 1],
    -- 2148: x66 += einsum("iabc->iabc", x65) * -1
    .add 264 (.ein [(263, [0, 1, 2, 3])] [0, 1, 2, 3]) (-1) 1,
    -- 2149: del x65
    .del 263,
    -- 2150: x66 += einsum("aibc->iabc", v.aaaa.vovv)
    .add 264 (.ein [(41, [0, 1, 2, 3])] [1, 0, 2, 3]) 1 1,
    -- 2151: x67 = np.zeros((nocc[0], nvir[0], nvir[0], nvir[0]), dtype=types[float])
    .zeros 265 [0, 1, 1, 1],
    -- 2152: x67 += einsum("iabc->iabc", x66)
    .add 265 (.ein [(264, [0, 1, 2, 3])] [0, 1, 2, 3]) 1 1,
    -- 2153: x67 += einsum("iabc->ibac", x66) * -1
    .add 265 (.ein [(264, [0, 1, 2, 3])] [0, 2, 1, 3]) (-1) 1,
    -- 2154: del x66
    .del 264,
    -- 2155: l1new_aa += einsum("abij,ibac->cj", l2.aaaa, x67) * -1
    .add 78 (.ein [(26, [0, 1, 2, 3]), (265, [2, 1, 0, 4])] [4, 3]) (-1) 1,
    -- 2156: del x67
    .del 265,
    -- 2157: x69 += einsum("ai,jkab->ijkb", l1.aa, t2.abab) * -1
    .add 85 (.ein [(18, [0, 1]), (9, [2, 3, 0, 4])] [1, 2, 3, 4]) (-1) 1,
    -- 2158: l1new_aa += einsum("iajb,kijb->ak", v.aabb.ovov, x69)
    .add 78 (.ein [(17, [0, 1, 2, 3]), (85, [4, 0, 2, 3])] [1, 4]) 1 1,
    -- 2159: del x69
    .del 85,
    -- 2160: x70 = np.zeros((nocc[0], nocc[0], nocc[0], nvir[0]), dtype=types[float])
    .zeros 266 [0, 0, 0, 1],
    -- 2161: x70 += einsum("ai,jkab->ikjb", l1.aa, t2.aaaa)
    .add 266 (.ein [(18, [0, 1]), (21, [2, 3, 0, 4])] [1, 3, 2, 4]) 1 1,
    -- 2162: x73 += einsum("ijka->ijka", x70) * 0.9999999999999993
    .add 246 (.ein [(266, [0, 1, 2, 3])] [0, 1, 2, 3]) 1 1,
    -- 2163: del x70
    .del 266,
    -- 2164: x74 = np.zeros((nocc[0], nocc[0], nocc[0], nvir[0]), dtype=types[float])
    .zeros 267 [0, 0, 0, 1],
    -- 2165: x74 += einsum("ijka->ijka", x73) * -1
    .add 267 (.ein [(246, [0, 1, 2, 3])] [0, 1, 2, 3]) (-1) 1,
    -- 2166: x74 += einsum("ijka->ikja", x73)
    .add 267 (.ein [(246, [0, 1, 2, 3])] [0, 2, 1, 3]) 1 1,
    -- 2167: del x73
    .del 246,
    -- 2168: l1new_aa += einsum("iajb,kjia->bk", v.aaaa.ovov, x74) * -1
    .add 78 (.ein [(24, [0, 1, 2, 3]), (267, [4, 2, 0, 1])] [3, 4]) (-1) 1,
    -- 2169: del x74
    .del 267,
    -- 2170: x76 = np.zeros((nocc[1], nvir[0], nvir[0], nvir[1]), dtype=types[float])
    .zeros 268 [4, 1, 1, 5],
    -- 2171: x76 += einsum("abci->iabc", v.aabb.vvvo)
    .add 268 (.ein [(42, [0, 1, 2, 3])] [3, 0, 1, 2]) 1 1,
    -- 2172: x76 += einsum("ia,bcda->ibcd", t1.bb, v.aabb.vvvv)
    .add 268 (.ein [(11, [0, 1]), (43, [2, 3, 4, 1])] [0, 2, 3, 4]) 1 1,
    -- 2173: l1new_aa += einsum("abij,jacb->ci", l2.abab, x76)
    .add 78 (.ein [(8, [0, 1, 2, 3]), (268, [3, 0, 4, 1])] [4, 2]) 1 1,
    -- 2174: del x76
    .del 268,
    -- 2175: x77 = np.zeros((nocc[0], nocc[0], nocc[0], nocc[0]), dtype=types[float])
    .zeros 269 [0, 0, 0, 0],
    -- 2176: x77 += einsum("abij,klba->ijlk", l2.aaaa, t2.aaaa)
    .add 269 (.ein [(26, [0, 1, 2, 3]), (21, [4, 5, 1, 0])] [2, 3, 5, 4]) 1 1,
    -- 2177: x78 = np.zeros((nocc[0], nocc[0], nocc[0], nocc[0]), dtype=types[float])
    .zeros 270 [0, 0, 0, 0],
    -- 2178: x78 += einsum("ijkl->jikl", x77)
    .add 270 (.ein [(269, [0, 1, 2, 3])] [1, 0, 2, 3]) 1 1,
    -- 2179: x78 += einsum("ijkl->jilk", x77) * -1
    .add 270 (.ein [(269, [0, 1, 2, 3])] [1, 0, 3, 2]) (-1) 1,
    -- 2180: x366 = np.zeros((nocc[0], nocc[0], nvir[0], nvir[0]), dtype=types[float])
    .zeros 271 [0, 0, 1, 1],
    -- 2181: x366 += einsum("iajb,klij->lkba", v.aaaa.ovov, x77)
    .add 271 (.ein [(24, [0, 1, 2, 3]), (269, [4, 5, 0, 2])] [5, 4, 3, 1]) 1 1,
    -- 2182: del x77
    .del 269,
    -- 2183: x370 += einsum("ijab->ijab", x366)
    .add 134 (.ein [(271, [0, 1, 2, 3])] [0, 1, 2, 3]) 1 1,
    -- 2184: del x366
    .del 271,
    -- 2185: l2new_aaaa = np.zeros((nvir[0], nvir[0], nocc[0], nocc[0]), dtype=types[float])
    .zeros 272 [1, 1, 0, 0],
    -- 2186: l2new_aaaa += einsum("ijab->abij", x370)
    .add 272 (.ein [(134, [0, 1, 2, 3])] [2, 3, 0, 1]) 1 1,
    -- 2187: l2new_aaaa += einsum("ijab->baij", x370) * -1
    .add 272 (.ein [(134, [0, 1, 2, 3])] [3, 2, 0, 1]) (-1) 1,
    -- 2188: del x370
    .del 134,
    -- 2189: x79 += einsum("ijka->ikja", v.aaaa.ooov)
    .add 137 (.ein [(27, [0, 1, 2, 3])] [0, 2, 1, 3]) 1 1,
    -- 2190: l1new_aa += einsum("ijkl,klia->aj", x78, x79) * -1
    .add 78 (.ein [(270, [0, 1, 2, 3]), (137, [2, 3, 0, 4])] [4, 1]) (-1) 1,
    -- 2191: del x78
    .del 270,
    -- 2192: del x79
    .del 137,
    -- 2193: x80 = np.zeros((nocc[0], nvir[0]), dtype=types[float])
    .zeros 273 [0, 1],
    -- 2194: x80 += einsum("w,wai->ia", s1, g.aa.bvo)
    .add 273 (.ein [(19, [0]), (1, [0, 1, 2])] [2, 1]) 1 1,
    -- 2195: x120 += einsum("ia->ia", x80)
    .add 149 (.ein [(273, [0, 1])] [0, 1]) 1 1,
    -- 2196: del x80
    .del 273,
    -- 2197: x81 = np.zeros((nocc[0], nvir[0]), dtype=types[float])
    .zeros 274 [0, 1],
    -- 2198: x81 += einsum("wab,wib->ia", g.aa.bvv, u11.aa)
    .add 274 (.ein [(3, [0, 1, 2]), (25, [0, 3, 2])] [3, 1]) 1 1,
    -- 2199: x120 += einsum("ia->ia", x81)
    .add 149 (.ein [(274, [0, 1])] [0, 1]) 1 1,
    -- 2200: del x81
    .del 274,
    -- 2201: x82 = np.zeros((nocc[0], nvir[0]), dtype=types[float])
    .zeros 275 [0, 1],
    -- 2202: x82 += einsum("ia,iabj->jb", t1.bb, v.bbaa.ovvo)
    .add 275 (.ein [(11, [0, 1]), (44, [0, 1, 2, 3])] [3, 2]) 1 1,
    -- 2203: x120 += einsum("ia->ia", x82)
    .add 149 (.ein [(275, [0, 1])] [0, 1]) 1 1,
    -- 2204: del x82
    .del 275,
    -- 2205: x83 = np.zeros((nocc[0], nvir[0]), dtype=types[float])
    .zeros 276 [0, 1],
    -- 2206: x83 += einsum("ijab,ikja->kb", t2.aaaa, v.aaaa.ooov)
    .add 276 (.ein [(21, [0, 1, 2, 3]), (27, [0, 4, 1, 2])] [4, 3]) 1 1,
    -- 2207: x120 += einsum("ia->ia", x83)
    .add 149 (.ein [(276, [0, 1])] [0, 1]) 1 1,
    -- 2208: del x83
    .del 276,
    -- 2209: x84 = np.zeros((nocc[0], nvir[0]), dtype=types[float])
    .zeros 277 [0, 1],
    -- 2210: x84 += einsum("ijab,jbca->ic", t2.abab, v.bbaa.ovvv)
    .add 277 (.ein [(9, [0, 1, 2, 3]), (15, [1, 3, 4, 2])] [0, 4]) 1 1,
    -- 2211: x120 += einsum("ia->ia", x84)
    .add 149 (.ein [(277, [0, 1])] [0, 1]) 1 1,
    -- 2212: del x84
    .del 277,
    -- 2213: x86 += einsum("ijka->ikja", v.aaaa.ooov)
    .add 138 (.ein [(27, [0, 1, 2, 3])] [0, 2, 1, 3]) 1 1,
    -- 2214: x87 = np.zeros((nocc[0], nvir[0]), dtype=types[float])
    .zeros 278 [0, 1],
    -- 2215: x87 += einsum("ijab,ijkb->ka", t2.aaaa, x86)
    .add 278 (.ein [(21, [0, 1, 2, 3]), (138, [0, 1, 4, 3])] [4, 2]) 1 1,
    -- 2216: del x86
    .del 138,
    -- 2217: x120 += einsum("ia->ia", x87) * -1
    .add 149 (.ein [(278, [0, 1])] [0, 1]) (-1) 1,
    -- 2218: del x87
    .del 278,
    -- 2219: x90 = np.zeros((nocc[1], nvir[1]), dtype=types[float])
    .zeros 279 [4, 5],
    -- 2220: x90 += einsum("w,wia->ia", s1, g.bb.bov)
    .add 279 (.ein [(19, [0]), (6, [0, 1, 2])] [1, 2]) 1 1,
    -- 2221: x94 = np.zeros((nocc[1], nvir[1]), dtype=types[float])
    .zeros 280 [4, 5],
    -- 2222: x94 += einsum("ia->ia", x90)
    .add 280 (.ein [(279, [0, 1])] [0, 1]) 1 1,
    -- 2223: x227 = np.zeros((nocc[1], nvir[1]), dtype=types[float])
    .zeros 281 [4, 5],
    -- 2224: x227 += einsum("ia->ia", x90)
    .add 281 (.ein [(279, [0, 1])] [0, 1]) 1 1,
    -- 2225: x297 = np.zeros((nocc[1], nvir[1]), dtype=types[float])
    .zeros 282 [4, 5],
    -- 2226: x297 += einsum("ia->ia", x90)
    .add 282 (.ein [(279, [0, 1])] [0, 1]) 1 1,
    -- 2227: x394 = np.zeros((nocc[1], nvir[1]), dtype=types[float])
    .zeros 283 [4, 5],
    -- 2228: x394 += einsum("ia->ia", x90)
    .add 283 (.ein [(279, [0, 1])] [0, 1]) 1 1,
    -- 2229: x513 = np.zeros((nocc[1], nvir[1]), dtype=types[float])
    .zeros 284 [4, 5],
    -- 2230: x513 += einsum("ia->ia", x90)
    .add 284 (.ein [(279, [0, 1])] [0, 1]) 1 1,
    -- 2231: del x90
    .del 279,
    -- 2232: x91 = np.zeros((nocc[1], nvir[1]), dtype=types[float])
    .zeros 285 [4, 5],
    -- 2233: x91 += einsum("ia,iajb->jb", t1.aa, v.aabb.ovov)
    .add 285 (.ein [(12, [0, 1]), (17, [0, 1, 2, 3])] [2, 3]) 1 1,
    -- 2234: x94 += einsum("ia->ia", x91)
    .add 280 (.ein [(285, [0, 1])] [0, 1]) 1 1,
    -- 2235: x233 = np.zeros((nocc[1], nvir[1]), dtype=types[float])
    .zeros 286 [4, 5],
    -- 2236: x233 += einsum("ia->ia", x91)
    .add 286 (.ein [(285, [0, 1])] [0, 1]) 1 1,
    -- 2237: x297 += einsum("ia->ia", x91)
    .add 282 (.ein [(285, [0, 1])] [0, 1]) 1 1,
    -- 2238: x414 = np.zeros((nocc[1], nvir[1]), dtype=types[float])
    .zeros 287 [4, 5],
    -- 2239: x414 += einsum("ia->ia", x91)
    .add 287 (.ein [(285, [0, 1])] [0, 1]) 1 1,
    -- 2240: x513 += einsum("ia->ia", x91)
    .add 284 (.ein [(285, [0, 1])] [0, 1]) 1 1,
    -- 2241: del x91
    .del 285,
    -- 2242: x92 = np.zeros((nocc[1], nocc[1], nvir[1], nvir[1]), dtype=types[float])
    .zeros 288 [4, 4, 5, 5],
    -- 2243: x92 += einsum("iajb->jiab", v.bbbb.ovov) * -1
    .add 288 (.ein [(45, [0, 1, 2, 3])] [2, 0, 1, 3]) (-1) 1,
    -- 2244: x92 += einsum("iajb->jiba", v.bbbb.ovov)
    .add 288 (.ein [(45, [0, 1, 2, 3])] [2, 0, 3, 1]) 1 1,
    -- 2245: x93 = np.zeros((nocc[1], nvir[1]), dtype=types[float])
    .zeros 289 [4, 5],
    -- 2246: x93 += einsum("ia,ijba->jb", t1.bb, x92)
    .add 289 (.ein [(11, [0, 1]), (288, [0, 2, 3, 1])] [2, 3]) 1 1,
    -- 2247: x94 += einsum("ia->ia", x93) * -1
    .add 280 (.ein [(289, [0, 1])] [0, 1]) (-1) 1,
    -- 2248: x233 += einsum("ia->ia", x93) * -1
    .add 286 (.ein [(289, [0, 1])] [0, 1]) (-1) 1,
    -- 2249: x234 = np.zeros((nocc[1], nocc[1], nocc[1], nvir[1]), dtype=types[float])
    .zeros 290 [4, 4, 4, 5],
    -- 2250: x234 += einsum("ia,jkab->jkib", x233, t2.bbbb)
    .add 290 (.ein [(286, [0, 1]), (31, [2, 3, 1, 4])] [2, 3, 0, 4]) 1 1,
    -- 2251: x239 = np.zeros((nocc[1], nocc[1], nocc[1], nvir[1]), dtype=types[float])
    .zeros 291 [4, 4, 4, 5],
    -- 2252: x239 += einsum("ijka->jika", x234)
    .add 291 (.ein [(290, [0, 1, 2, 3])] [1, 0, 2, 3]) 1 1,
    -- 2253: del x234
    .del 290,
    -- 2254: x428 = np.zeros((nocc[1], nocc[1]), dtype=types[float])
    .zeros 292 [4, 4],
    -- 2255: x428 += einsum("ia,ja->ij", t1.bb, x233)
    .add 292 (.ein [(11, [0, 1]), (286, [2, 1])] [0, 2]) 1 1,
    -- 2256: x429 = np.zeros((nocc[1], nocc[1]), dtype=types[float])
    .zeros 293 [4, 4],
    -- 2257: x429 += einsum("ij->ij", x428)
    .add 293 (.ein [(292, [0, 1])] [0, 1]) 1 1,
    -- 2258: del x428
    .del 292,
    -- 2259: x297 += einsum("ia->ia", x93) * -1
    .add 282 (.ein [(289, [0, 1])] [0, 1]) (-1) 1,
    -- 2260: del x93
    .del 289,
    -- 2261: x283 = np.zeros((nbos, nocc[1], nvir[1]), dtype=types[float])
    .zeros 294 [2, 4, 5],
    -- 2262: x283 += einsum("wia,ijba->wjb", u11.bb, x92)
    .add 294 (.ein [(46, [0, 1, 2]), (288, [1, 3, 4, 2])] [0, 3, 4]) 1 1,
    -- 2263: x284 = np.zeros((nbos, nocc[1], nvir[1]), dtype=types[float])
    .zeros 295 [2, 4, 5],
    -- 2264: x284 += einsum("wia->wia", x283) * -1
    .add 295 (.ein [(294, [0, 1, 2])] [0, 1, 2]) (-1) 1,
    -- 2265: x295 = np.zeros((nbos, nocc[1], nvir[1]), dtype=types[float])
    .zeros 296 [2, 4, 5],
    -- 2266: x295 += einsum("wia->wia", x283) * -1
    .add 296 (.ein [(294, [0, 1, 2])] [0, 1, 2]) (-1) 1,
    -- 2267: del x283
    .del 294,
    -- 2268: x427 = np.zeros((nocc[1], nocc[1]), dtype=types[float])
    .zeros 297 [4, 4],
    -- 2269: x427 += einsum("ijab,ikba->jk", t2.bbbb, x92)
    .add 297 (.ein [(31, [0, 1, 2, 3]), (288, [0, 4, 3, 2])] [1, 4]) 1 1,
    -- 2270: x429 += einsum("ij->ij", x427) * -1
    .add 293 (.ein [(297, [0, 1])] [0, 1]) (-1) 1,
    -- 2271: del x427
    .del 297,
    -- 2272: x449 = np.zeros((nocc[0], nocc[1], nvir[0], nvir[1]), dtype=types[float])
    .zeros 298 [0, 4, 1, 5],
    -- 2273: x449 += einsum("ijab,jkcb->ikac", t2.abab, x92)
    .add 298 (.ein [(9, [0, 1, 2, 3]), (288, [1, 4, 5, 3])] [0, 4, 2, 5]) 1 1,
    -- 2274: x450 += einsum("ijab->ijab", x449) * -1
    .add 153 (.ein [(298, [0, 1, 2, 3])] [0, 1, 2, 3]) (-1) 1,
    -- 2275: del x449
    .del 298,
    -- 2276: x489 = np.zeros((nvir[1], nvir[1]), dtype=types[float])
    .zeros 299 [5, 5],
    -- 2277: x489 += einsum("ijab,ijac->bc", t2.bbbb, x92)
    .add 299 (.ein [(31, [0, 1, 2, 3]), (288, [0, 1, 2, 4])] [3, 4]) 1 1,
    -- 2278: x490 = np.zeros((nvir[1], nvir[1]), dtype=types[float])
    .zeros 300 [5, 5],
    -- 2279: x490 += einsum("ab->ab", x489) * -1
    .add 300 (.ein [(299, [0, 1])] [0, 1]) (-1) 1,
    -- 2280: del x489
    .del 299,
    -- 2281: x94 += einsum("ia->ia", f.bb.ov)
    .add 280 (.ein [(47, [0, 1])] [0, 1]) 1 1,
    -- 2282: x95 = np.zeros((nocc[0], nvir[0]), dtype=types[float])
    .zeros 301 [0, 1],
    -- 2283: x95 += einsum("ia,jiba->jb", x94, t2.abab)
    .add 301 (.ein [(280, [0, 1]), (9, [2, 0, 3, 1])] [2, 3]) 1 1,
    -- 2284: x120 += einsum("ia->ia", x95)
    .add 149 (.ein [(301, [0, 1])] [0, 1]) 1 1,
    -- 2285: del x95
    .del 301,
    -- 2286: x133 = np.zeros((nocc[1], nvir[1]), dtype=types[float])
    .zeros 302 [4, 5],
    -- 2287: x133 += einsum("ia,ijba->jb", x94, x35)
    .add 302 (.ein [(280, [0, 1]), (169, [0, 2, 3, 1])] [2, 3]) 1 1,
    -- 2288: x158 += einsum("ia->ia", x133) * -1
    .add 171 (.ein [(302, [0, 1])] [0, 1]) (-1) 1,
    -- 2289: del x133
    .del 302,
    -- 2290: x148 = np.zeros((nocc[1], nocc[1]), dtype=types[float])
    .zeros 303 [4, 4],
    -- 2291: x148 += einsum("ia,ja->ij", t1.bb, x94)
    .add 303 (.ein [(11, [0, 1]), (280, [2, 1])] [0, 2]) 1 1,
    -- 2292: x149 = np.zeros((nocc[1], nocc[1]), dtype=types[float])
    .zeros 304 [4, 4],
    -- 2293: x149 += einsum("ij->ji", x148)
    .add 304 (.ein [(303, [0, 1])] [1, 0]) 1 1,
    -- 2294: del x148
    .del 303,
    -- 2295: x217 = np.zeros((nbos), dtype=types[float])
    .zeros 305 [2],
    -- 2296: x217 += einsum("ia,wia->w", x94, u11.bb)
    .add 305 (.ein [(280, [0, 1]), (46, [2, 0, 1])] [2]) 1 1,
    -- 2297: x219 += einsum("w->w", x217)
    .add 197 (.ein [(305, [0])] [0]) 1 1,
    -- 2298: del x217
    .del 305,
    -- 2299: x250 += einsum("ia,jkba->jikb", x94, t2.abab)
    .add 159 (.ein [(280, [0, 1]), (9, [2, 3, 4, 1])] [2, 0, 3, 4]) 1 1,
    -- 2300: x285 = np.zeros((nbos, nocc[1], nocc[1]), dtype=types[float])
    .zeros 306 [2, 4, 4],
    -- 2301: x285 += einsum("ia,wja->wij", x94, u11.bb)
    .add 306 (.ein [(280, [0, 1]), (46, [2, 3, 1])] [2, 0, 3]) 1 1,
    -- 2302: x501 = np.zeros((nocc[0], nocc[1], nvir[0], nvir[1]), dtype=types[float])
    .zeros 307 [0, 4, 1, 5],
    -- 2303: x501 += einsum("ia,jkib->jkba", x94, x1)
    .add 307 (.ein [(280, [0, 1]), (79, [2, 3, 0, 4])] [2, 3, 4, 1]) 1 1,
    -- 2304: l2new_baba += einsum("ijab->baji", x501) * -1
    .add 92 (.ein [(307, [0, 1, 2, 3])] [3, 2, 1, 0]) (-1) 1,
    -- 2305: l2new_abab += einsum("ijab->abij", x501) * -1
    .add 93 (.ein [(307, [0, 1, 2, 3])] [2, 3, 0, 1]) (-1) 1,
    -- 2306: del x501
    .del 307,
    -- 2307: lu11new_bb = np.zeros((nbos, nvir[1], nocc[1]), dtype=types[float])
    .zeros 308 [2, 5, 4],
    -- 2308: lu11new_bb += einsum("w,ia->wai", ls1, x94) * 2
    .add 308 (.ein [(34, [0]), (280, [1, 2])] [0, 2, 1]) 2 1,
    -- 2309: del x94
    .del 280,
    -- 2310: x97 = np.zeros((nbos, nocc[0], nocc[0]), dtype=types[float])
    .zeros 309 [2, 0, 0],
    -- 2311: x97 += einsum("ia,wja->wji", t1.aa, g.aa.bov)
    .add 309 (.ein [(12, [0, 1]), (2, [2, 3, 1])] [2, 3, 0]) 1 1,
    -- 2312: x98 = np.zeros((nbos, nocc[0], nocc[0]), dtype=types[float])
    .zeros 310 [2, 0, 0],
    -- 2313: x98 += einsum("wij->wij", x97)
    .add 310 (.ein [(309, [0, 1, 2])] [0, 1, 2]) 1 1,
    -- 2314: x521 = np.zeros((nbos, nocc[0], nocc[0]), dtype=types[float])
    .zeros 311 [2, 0, 0],
    -- 2315: x521 += einsum("wij->wij", x97)
    .add 311 (.ein [(309, [0, 1, 2])] [0, 1, 2]) 1 1,
    -- 2316: del x97
    .del 309,
    -- 2317: x98 += einsum("wij->wij", g.aa.boo)
    .add 310 (.ein [(0, [0, 1, 2])] [0, 1, 2]) 1 1,
    -- 2318: x99 = np.zeros((nocc[0], nvir[0]), dtype=types[float])
    .zeros 312 [0, 1],
    -- 2319: x99 += einsum("wia,wij->ja", u11.aa, x98)
    .add 312 (.ein [(25, [0, 1, 2]), (310, [0, 1, 3])] [3, 2]) 1 1,
    -- 2320: x120 += einsum("ia->ia", x99) * -1
    .add 149 (.ein [(312, [0, 1])] [0, 1]) (-1) 1,
    -- 2321: del x99
    .del 312,
    -- 2322: x100 = np.zeros((nocc[0], nocc[0]), dtype=types[float])
    .zeros 313 [0, 0],
    -- 2323: x100 += einsum("w,wij->ij", s1, g.aa.boo)
    .add 313 (.ein [(19, [0]), (0, [0, 1, 2])] [1, 2]) 1 1,
    -- 2324: x108 += einsum("ij->ij", x100)
    .add 151 (.ein [(313, [0, 1])] [0, 1]) 1 1,
    -- 2325: x324 = np.zeros((nocc[0], nocc[0]), dtype=types[float])
    .zeros 314 [0, 0],
    -- 2326: x324 += einsum("ij->ij", x100)
    .add 314 (.ein [(313, [0, 1])] [0, 1]) 1 1,
    -- 2327: del x100
    .del 313,
    -- 2328: x101 = np.zeros((nocc[0], nocc[0]), dtype=types[float])
    .zeros 315 [0, 0],
    -- 2329: x101 += einsum("wia,wja->ij", g.aa.bov, u11.aa)
    .add 315 (.ein [(2, [0, 1, 2]), (25, [0, 3, 2])] [1, 3]) 1 1,
    -- 2330: x108 += einsum("ij->ij", x101)
    .add 151 (.ein [(315, [0, 1])] [0, 1]) 1 1,
    -- 2331: x324 += einsum("ij->ij", x101)
    .add 314 (.ein [(315, [0, 1])] [0, 1]) 1 1,
    -- 2332: del x101
    .del 315,
    -- 2333: x102 = np.zeros((nocc[0], nocc[0]), dtype=types[float])
    .zeros 316 [0, 0],
    -- 2334: x102 += einsum("ia,jkia->jk", t1.bb, v.aabb.ooov)
    .add 316 (.ein [(11, [0, 1]), (14, [2, 3, 0, 1])] [2, 3]) 1 1,
    -- 2335: x108 += einsum("ij->ij", x102)
    .add 151 (.ein [(316, [0, 1])] [0, 1]) 1 1,
    -- 2336: x328 = np.zeros((nocc[0], nocc[0]), dtype=types[float])
    .zeros 317 [0, 0],
    -- 2337: x328 += einsum("ij->ij", x102)
    .add 317 (.ein [(316, [0, 1])] [0, 1]) 1 1,
    -- 2338: del x102
    .del 316,
    -- 2339: x103 = np.zeros((nocc[0], nocc[0]), dtype=types[float])
    .zeros 318 [0, 0],
    -- 2340: x103 += einsum("ijab,kajb->ik", t2.abab, v.aabb.ovov)
    .add 318 (.ein [(9, [0, 1, 2, 3]), (17, [4, 2, 1, 3])] [0, 4]) 1 1,
    -- 2341: x108 += einsum("ij->ji", x103)
    .add 151 (.ein [(318, [0, 1])] [1, 0]) 1 1,
    -- 2342: x352 += einsum("ij->ij", x103)
    .add 121 (.ein [(318, [0, 1])] [0, 1]) 1 1,
    -- 2343: del x103
    .del 318,
    -- 2344: x353 = np.zeros((nocc[0], nocc[0], nvir[0], nvir[0]), dtype=types[float])
    .zeros 319 [0, 0, 1, 1],
    -- 2345: x353 += einsum("ij,abik->kjab", x352, l2.aaaa)
    .add 319 (.ein [(121, [0, 1]), (26, [2, 3, 0, 4])] [4, 1, 2, 3]) 1 1,
    -- 2346: del x352
    .del 121,
    -- 2347: x362 += einsum("ijab->ijba", x353)
    .add 209 (.ein [(319, [0, 1, 2, 3])] [0, 1, 3, 2]) 1 1,
    -- 2348: del x353
    .del 319,
    -- 2349: x105 = np.zeros((nocc[0], nocc[0], nocc[0], nvir[0]), dtype=types[float])
    .zeros 320 [0, 0, 0, 1],
    -- 2350: x105 += einsum("ijka->ikja", v.aaaa.ooov)
    .add 320 (.ein [(27, [0, 1, 2, 3])] [0, 2, 1, 3]) 1 1,
    -- 2351: x105 += einsum("ijka->kija", v.aaaa.ooov) * -1
    .add 320 (.ein [(27, [0, 1, 2, 3])] [2, 0, 1, 3]) (-1) 1,
    -- 2352: x106 = np.zeros((nocc[0], nocc[0]), dtype=types[float])
    .zeros 321 [0, 0],
    -- 2353: x106 += einsum("ia,ijka->jk", t1.aa, x105)
    .add 321 (.ein [(12, [0, 1]), (320, [0, 2, 3, 1])] [2, 3]) 1 1,
    -- 2354: x108 += einsum("ij->ij", x106) * -1
    .add 151 (.ein [(321, [0, 1])] [0, 1]) (-1) 1,
    -- 2355: del x106
    .del 321,
    -- 2356: x200 += einsum("wia,ijka->wjk", u11.aa, x105) * -1
    .add 195 (.ein [(25, [0, 1, 2]), (320, [1, 3, 4, 2])] [0, 3, 4]) (-1) 1,
    -- 2357: x108 += einsum("ij->ij", f.aa.oo)
    .add 151 (.ein [(48, [0, 1])] [0, 1]) 1 1,
    -- 2358: x109 = np.zeros((nocc[0], nvir[0]), dtype=types[float])
    .zeros 322 [0, 1],
    -- 2359: x109 += einsum("ia,ij->ja", t1.aa, x108)
    .add 322 (.ein [(12, [0, 1]), (151, [0, 2])] [2, 1]) 1 1,
    -- 2360: x120 += einsum("ia->ia", x109) * -1
    .add 149 (.ein [(322, [0, 1])] [0, 1]) (-1) 1,
    -- 2361: del x109
    .del 322,
    -- 2362: x492 = np.zeros((nocc[0], nocc[1], nvir[0], nvir[1]), dtype=types[float])
    .zeros 323 [0, 4, 1, 5],
    -- 2363: x492 += einsum("ij,abjk->ikab", x108, l2.abab)
    .add 323 (.ein [(151, [0, 1]), (8, [2, 3, 1, 4])] [0, 4, 2, 3]) 1 1,
    -- 2364: l2new_baba += einsum("ijab->baji", x492) * -1
    .add 92 (.ein [(323, [0, 1, 2, 3])] [3, 2, 1, 0]) (-1) 1,
    -- 2365: l2new_abab += einsum("ijab->abij", x492) * -1
    .add 93 (.ein [(323, [0, 1, 2, 3])] [2, 3, 0, 1]) (-1) 1,
    -- 2366: del x492
    .del 323,
    -- 2367: l1new_aa += einsum("ai,ji->aj", l1.aa, x108) * -1
    .add 78 (.ein [(18, [0, 1]), (151, [2, 1])] [0, 2]) (-1) 1,
    -- 2368: del x108
    .del 151,
    -- 2369: x110 = np.zeros((nvir[0], nvir[0]), dtype=types[float])
    .zeros 324 [1, 1],
    -- 2370: x110 += einsum("w,wab->ab", s1, g.aa.bvv)
    .add 324 (.ein [(19, [0]), (3, [0, 1, 2])] [1, 2]) 1 1,
    -- 2371: x114 = np.zeros((nvir[0], nvir[0]), dtype=types[float])
    .zeros 325 [1, 1],
    -- 2372: x114 += einsum("ab->ab", x110)
    .add 325 (.ein [(324, [0, 1])] [0, 1]) 1 1,
    -- 2373: x317 = np.zeros((nvir[0], nvir[0]), dtype=types[float])
    .zeros 326 [1, 1],
    -- 2374: x317 += einsum("ab->ab", x110)
    .add 326 (.ein [(324, [0, 1])] [0, 1]) 1 1,
    -- 2375: x487 += einsum("ab->ab", x110)
    .add 225 (.ein [(324, [0, 1])] [0, 1]) 1 1,
    -- 2376: del x110
    .del 324,
    -- 2377: x111 = np.zeros((nvir[0], nvir[0]), dtype=types[float])
    .zeros 327 [1, 1],
    -- 2378: x111 += einsum("ia,iabc->bc", t1.bb, v.bbaa.ovvv)
    .add 327 (.ein [(11, [0, 1]), (15, [0, 1, 2, 3])] [2, 3]) 1 1,
    -- 2379: x114 += einsum("ab->ab", x111)
    .add 325 (.ein [(327, [0, 1])] [0, 1]) 1 1,
    -- 2380: x320 = np.zeros((nvir[0], nvir[0]), dtype=types[float])
    .zeros 328 [1, 1],
    -- 2381: x320 += einsum("ab->ab", x111)
    .add 328 (.ein [(327, [0, 1])] [0, 1]) 1 1,
    -- 2382: x487 += einsum("ab->ab", x111)
    .add 225 (.ein [(327, [0, 1])] [0, 1]) 1 1,
    -- 2383: del x111
    .del 327,
    -- 2384: x112 = np.zeros((nocc[0], nvir[0], nvir[0], nvir[0]), dtype=types[float])
    .zeros 329 [0, 1, 1, 1],
    -- 2385: x112 += einsum("iabc->ibca", v.aaaa.ovvv)
    .add 329 (.ein [(23, [0, 1, 2, 3])] [0, 2, 3, 1]) 1 1,
    -- 2386: x112 += einsum("iabc->ibac", v.aaaa.ovvv) * -1
    .add 329 (.ein [(23, [0, 1, 2, 3])] [0, 2, 1, 3]) (-1) 1,
    -- 2387: x113 = np.zeros((nvir[0], nvir[0]), dtype=types[float])
    .zeros 330 [1, 1],
    -- 2388: x113 += einsum("ia,ibac->bc", t1.aa, x112)
    .add 330 (.ein [(12, [0, 1]), (329, [0, 2, 1, 3])] [2, 3]) 1 1,
    -- 2389: del x112
    .del 329,
    -- 2390: x114 += einsum("ab->ab", x113) * -1
    .add 325 (.ein [(330, [0, 1])] [0, 1]) (-1) 1,
    -- 2391: x487 += einsum("ab->ab", x113) * -1
    .add 225 (.ein [(330, [0, 1])] [0, 1]) (-1) 1,
    -- 2392: del x113
    .del 330,
    -- 2393: x114 += einsum("ab->ab", f.aa.vv)
    .add 325 (.ein [(49, [0, 1])] [0, 1]) 1 1,
    -- 2394: x115 = np.zeros((nocc[0], nvir[0]), dtype=types[float])
    .zeros 331 [0, 1],
    -- 2395: x115 += einsum("ia,ba->ib", t1.aa, x114)
    .add 331 (.ein [(12, [0, 1]), (325, [2, 1])] [0, 2]) 1 1,
    -- 2396: x120 += einsum("ia->ia", x115)
    .add 149 (.ein [(331, [0, 1])] [0, 1]) 1 1,
    -- 2397: del x115
    .del 331,
    -- 2398: l1new_aa += einsum("ai,ab->bi", l1.aa, x114)
    .add 78 (.ein [(18, [0, 1]), (325, [0, 2])] [2, 1]) 1 1,
    -- 2399: del x114
    .del 325,
    -- 2400: x116 = np.zeros((nbos), dtype=types[float])
    .zeros 332 [2],
    -- 2401: x116 += einsum("ia,wia->w", t1.aa, g.aa.bov)
    .add 332 (.ein [(12, [0, 1]), (2, [2, 0, 1])] [2]) 1 1,
    -- 2402: x118 = np.zeros((nbos), dtype=types[float])
    .zeros 333 [2],
    -- 2403: x118 += einsum("w->w", x116)
    .add 333 (.ein [(332, [0])] [0]) 1 1,
    -- 2404: x515 = np.zeros((nbos), dtype=types[float])
    .zeros 334 [2],
    -- 2405: x515 += einsum("w->w", x116)
    .add 334 (.ein [(332, [0])] [0]) 1 1,
    -- 2406: del x116
    .del 332,
    -- 2407: x117 = np.zeros((nbos), dtype=types[float])
    .zeros 335 [2],
    -- 2408: x117 += einsum("ia,wia->w", t1.bb, g.bb.bov)
    .add 335 (.ein [(11, [0, 1]), (6, [2, 0, 1])] [2]) 1 1,
    -- 2409: x118 += einsum("w->w", x117)
    .add 333 (.ein [(335, [0])] [0]) 1 1,
    -- 2410: x515 += einsum("w->w", x117)
    .add 334 (.ein [(335, [0])] [0]) 1 1,
    -- 2411: del x117
    .del 335,
    -- 2412: x118 += einsum("w->w", G)
    .add 333 (.ein [(50, [0])] [0]) 1 1,
    -- 2413: x119 = np.zeros((nocc[0], nvir[0]), dtype=types[float])
    .zeros 336 [0, 1],
    -- 2414: x119 += einsum("w,wia->ia", x118, u11.aa)
    .add 336 (.ein [(333, [0]), (25, [0, 1, 2])] [1, 2]) 1 1,
    -- 2415: x120 += einsum("ia->ia", x119)
    .add 149 (.ein [(336, [0, 1])] [0, 1]) 1 1,
    -- 2416: del x119
    .del 336,
    -- 2417: x157 = np.zeros((nocc[1], nvir[1]), dtype=types[float])
    .zeros 337 [4, 5],
    -- 2418: x157 += einsum("w,wia->ia", x118, u11.bb)
    .add 337 (.ein [(333, [0]), (46, [0, 1, 2])] [1, 2]) 1 1,
    -- 2419: x158 += einsum("ia->ia", x157)
    .add 171 (.ein [(337, [0, 1])] [0, 1]) 1 1,
    -- 2420: del x157
    .del 337,
    -- 2421: x218 = np.zeros((nbos), dtype=types[float])
    .zeros 338 [2],
    -- 2422: x218 += einsum("w,wx->x", x118, s2)
    .add 338 (.ein [(333, [0]), (51, [0, 1])] [1]) 1 1,
    -- 2423: del x118
    .del 333,
    -- 2424: x219 += einsum("w->w", x218)
    .add 197 (.ein [(338, [0])] [0]) 1 1,
    -- 2425: del x218
    .del 338,
    -- 2426: x120 += einsum("ai->ia", f.aa.vo)
    .add 149 (.ein [(52, [0, 1])] [1, 0]) 1 1,
    -- 2427: l1new_bb += einsum("ia,abij->bj", x120, l2.abab)
    .add 83 (.ein [(149, [0, 1]), (8, [1, 2, 0, 3])] [2, 3]) 1 1,
    -- 2428: ls1new = np.zeros((nbos), dtype=types[float])
    .zeros 339 [2],
    -- 2429: ls1new += einsum("ia,wai->w", x120, lu11.aa)
    .add 339 (.ein [(149, [0, 1]), (53, [2, 1, 0])] [2]) 1 1,
    -- 2430: x121 = np.zeros((nocc[0], nocc[0], nvir[0], nvir[0]), dtype=types[float])
    .zeros 340 [0, 0, 1, 1],
    -- 2431: x121 -= einsum("abij->jiab", l2.aaaa)
    .add 340 (.ein [(26, [0, 1, 2, 3])] [3, 2, 0, 1]) (-1) 1,
    -- 2432: x121 += einsum("abij->jiba", l2.aaaa)
    .add 340 (.ein [(26, [0, 1, 2, 3])] [3, 2, 1, 0]) 1 1,
    -- 2433: x204 = np.zeros((nbos, nocc[0], nvir[0]), dtype=types[float])
    .zeros 341 [2, 0, 1],
    -- 2434: x204 += einsum("wia,ijba->wjb", u11.aa, x121)
    .add 341 (.ein [(25, [0, 1, 2]), (340, [1, 3, 4, 2])] [0, 3, 4]) 1 1,
    -- 2435: x205 = np.zeros((nbos, nocc[0], nvir[0]), dtype=types[float])
    .zeros 342 [2, 0, 1],
    -- 2436: x205 -= einsum("wia->wia", x204)
    .add 342 (.ein [(341, [0, 1, 2])] [0, 1, 2]) (-1) 1,
    -- 2437: x330 = np.zeros((nbos, nocc[0], nvir[0]), dtype=types[float])
    .zeros 343 [2, 0, 1],
    -- 2438: x330 -= einsum("wia->wia", x204)
    .add 343 (.ein [(341, [0, 1, 2])] [0, 1, 2]) (-1) 1,
    -- 2439: del x204
    .del 341,
    -- 2440: l1new_aa += einsum("ia,ijba->bj", x120, x121) * -1
    .add 78 (.ein [(149, [0, 1]), (340, [0, 2, 3, 1])] [3, 2]) (-1) 1,
    -- 2441: del x120
    .del 149,
    -- 2442: lu11new_aa -= einsum("wai,ijba->wbj", g.aa.bvo, x121)
    .add 198 (.ein [(1, [0, 1, 2]), (340, [2, 3, 4, 1])] [0, 4, 3]) (-1) 1,
    -- 2443: del x121
    .del 340,
    -- 2444: x123 = np.zeros((nocc[1], nvir[1]), dtype=types[float])
    .zeros 344 [4, 5],
    -- 2445: x123 += einsum("w,wai->ia", s1, g.bb.bvo)
    .add 344 (.ein [(19, [0]), (5, [0, 1, 2])] [2, 1]) 1 1,
    -- 2446: x158 += einsum("ia->ia", x123)
    .add 171 (.ein [(344, [0, 1])] [0, 1]) 1 1,
    -- 2447: del x123
    .del 344,
    -- 2448: x124 = np.zeros((nocc[1], nvir[1]), dtype=types[float])
    .zeros 345 [4, 5],
    -- 2449: x124 += einsum("wab,wib->ia", g.bb.bvv, u11.bb)
    .add 345 (.ein [(7, [0, 1, 2]), (46, [0, 3, 2])] [3, 1]) 1 1,
    -- 2450: x158 += einsum("ia->ia", x124)
    .add 171 (.ein [(345, [0, 1])] [0, 1]) 1 1,
    -- 2451: del x124
    .del 345,
    -- 2452: x125 = np.zeros((nocc[1], nvir[1]), dtype=types[float])
    .zeros 346 [4, 5],
    -- 2453: x125 += einsum("ia,iabj->jb", t1.aa, v.aabb.ovvo)
    .add 346 (.ein [(12, [0, 1]), (36, [0, 1, 2, 3])] [3, 2]) 1 1,
    -- 2454: x158 += einsum("ia->ia", x125)
    .add 171 (.ein [(346, [0, 1])] [0, 1]) 1 1,
    -- 2455: del x125
    .del 346,
    -- 2456: x126 = np.zeros((nocc[1], nvir[1]), dtype=types[float])
    .zeros 347 [4, 5],
    -- 2457: x126 += einsum("ijab,iacb->jc", t2.abab, v.aabb.ovvv)
    .add 347 (.ein [(9, [0, 1, 2, 3]), (10, [0, 2, 4, 3])] [1, 4]) 1 1,
    -- 2458: x158 += einsum("ia->ia", x126)
    .add 171 (.ein [(347, [0, 1])] [0, 1]) 1 1,
    -- 2459: del x126
    .del 347,
    -- 2460: x127 = np.zeros((nocc[1], nvir[1]), dtype=types[float])
    .zeros 348 [4, 5],
    -- 2461: x127 += einsum("ijab,jkib->ka", t2.bbbb, v.bbbb.ooov)
    .add 348 (.ein [(31, [0, 1, 2, 3]), (54, [1, 4, 0, 3])] [4, 2]) 1 1,
    -- 2462: x158 += einsum("ia->ia", x127)
    .add 171 (.ein [(348, [0, 1])] [0, 1]) 1 1,
    -- 2463: del x127
    .del 348,
    -- 2464: x129 = np.zeros((nocc[1], nocc[1], nocc[1], nvir[1]), dtype=types[float])
    .zeros 349 [4, 4, 4, 5],
    -- 2465: x129 += einsum("ia,jakb->ikjb", t1.bb, v.bbbb.ovov)
    .add 349 (.ein [(11, [0, 1]), (45, [2, 1, 3, 4])] [0, 3, 2, 4]) 1 1,
    -- 2466: x130 = np.zeros((nocc[1], nocc[1], nocc[1], nvir[1]), dtype=types[float])
    .zeros 350 [4, 4, 4, 5],
    -- 2467: x130 += einsum("ijka->jkia", x129) * -1
    .add 350 (.ein [(349, [0, 1, 2, 3])] [1, 2, 0, 3]) (-1) 1,
    -- 2468: x130 += einsum("ijka->kjia", x129)
    .add 350 (.ein [(349, [0, 1, 2, 3])] [2, 1, 0, 3]) 1 1,
    -- 2469: x236 = np.zeros((nocc[1], nocc[1], nocc[1], nocc[1]), dtype=types[float])
    .zeros 351 [4, 4, 4, 4],
    -- 2470: x236 += einsum("ia,jkla->ijkl", t1.bb, x129)
    .add 351 (.ein [(11, [0, 1]), (349, [2, 3, 4, 1])] [0, 2, 3, 4]) 1 1,
    -- 2471: x237 = np.zeros((nocc[1], nocc[1], nocc[1], nocc[1]), dtype=types[float])
    .zeros 352 [4, 4, 4, 4],
    -- 2472: x237 += einsum("ijkl->ijkl", x236)
    .add 352 (.ein [(351, [0, 1, 2, 3])] [0, 1, 2, 3]) 1 1,
    -- 2473: x418 = np.zeros((nocc[1], nocc[1], nocc[1], nocc[1]), dtype=types[float])
    .zeros 353 [4, 4, 4, 4],
    -- 2474: x418 += einsum("ijkl->ijkl", x236)
    .add 353 (.ein [(351, [0, 1, 2, 3])] [0, 1, 2, 3]) 1 1,
    -- 2475: del x236
    .del 351,
    -- 2476: x240 = np.zeros((nocc[1], nocc[1], nocc[1], nvir[1]), dtype=types[float])
    .zeros 354 [4, 4, 4, 5],
    -- 2477: x240 += einsum("ijka->ijka", x129) * -1
    .add 354 (.ein [(349, [0, 1, 2, 3])] [0, 1, 2, 3]) (-1) 1,
    -- 2478: x240 += einsum("ijka->ikja", x129)
    .add 354 (.ein [(349, [0, 1, 2, 3])] [0, 2, 1, 3]) 1 1,
    -- 2479: x247 = np.zeros((nocc[1], nocc[1], nocc[1], nvir[1]), dtype=types[float])
    .zeros 355 [4, 4, 4, 5],
    -- 2480: x247 += einsum("ijka->jkia", x129) * -1
    .add 355 (.ein [(349, [0, 1, 2, 3])] [1, 2, 0, 3]) (-1) 1,
    -- 2481: x247 += einsum("ijka->kjia", x129)
    .add 355 (.ein [(349, [0, 1, 2, 3])] [2, 1, 0, 3]) 1 1,
    -- 2482: x276 = np.zeros((nocc[1], nocc[1], nocc[1], nvir[1]), dtype=types[float])
    .zeros 356 [4, 4, 4, 5],
    -- 2483: x276 += einsum("ijka->jkia", x129) * -1
    .add 356 (.ein [(349, [0, 1, 2, 3])] [1, 2, 0, 3]) (-1) 1,
    -- 2484: x411 = np.zeros((nocc[1], nocc[1], nocc[1], nvir[1]), dtype=types[float])
    .zeros 357 [4, 4, 4, 5],
    -- 2485: x411 += einsum("ijka->ijka", x129)
    .add 357 (.ein [(349, [0, 1, 2, 3])] [0, 1, 2, 3]) 1 1,
    -- 2486: x423 = np.zeros((nocc[1], nocc[1], nocc[1], nvir[1]), dtype=types[float])
    .zeros 358 [4, 4, 4, 5],
    -- 2487: x423 += einsum("ijka->ijka", x129)
    .add 358 (.ein [(349, [0, 1, 2, 3])] [0, 1, 2, 3]) 1 1,
    -- 2488: x423 += einsum("ijka->ikja", x129) * -1
    .add 358 (.ein [(349, [0, 1, 2, 3])] [0, 2, 1, 3]) (-1) 1,
    -- 2489: x482 = np.zeros((nocc[1], nocc[1], nocc[1], nvir[1]), dtype=types[float])
    .zeros 359 [4, 4, 4, 5],
    -- 2490: x482 += einsum("ijka->ijka", x129) * -1
    .add 359 (.ein [(349, [0, 1, 2, 3])] [0, 1, 2, 3]) (-1) 1,
    -- 2491: x482 += einsum("ijka->ikja", x129)
    .add 359 (.ein [(349, [0, 1, 2, 3])] [0, 2, 1, 3]) 1 1,
    -- 2492: del x129
    .del 349,
    -- 2493: x483 = np.zeros((nocc[0], nocc[1], nvir[0], nvir[1]), dtype=types[float])
    .zeros 360 [0, 4, 1, 5],
    -- 2494: x483 += einsum("ijka,jklb->ilab", x1, x482)
    .add 360 (.ein [(79, [0, 1, 2, 3]), (359, [1, 2, 4, 5])] [0, 4, 3, 5]) 1 1,
    -- 2495: del x482
    .del 359,
    -- 2496: l2new_baba += einsum("ijab->baji", x483) * -1
    .add 92 (.ein [(360, [0, 1, 2, 3])] [3, 2, 1, 0]) (-1) 1,
    -- 2497: l2new_abab += einsum("ijab->abij", x483) * -1
    .add 93 (.ein [(360, [0, 1, 2, 3])] [2, 3, 0, 1]) (-1) 1,
    -- 2498: del x483
    .del 360,
    -- 2499: x130 += einsum("ijka->ikja", v.bbbb.ooov)
    .add 350 (.ein [(54, [0, 1, 2, 3])] [0, 2, 1, 3]) 1 1,
    -- 2500: x131 = np.zeros((nocc[1], nvir[1]), dtype=types[float])
    .zeros 361 [4, 5],
    -- 2501: x131 += einsum("ijab,jika->kb", t2.bbbb, x130)
    .add 361 (.ein [(31, [0, 1, 2, 3]), (350, [1, 0, 4, 2])] [4, 3]) 1 1,
    -- 2502: del x130
    .del 350,
    -- 2503: x158 += einsum("ia->ia", x131) * -1
    .add 171 (.ein [(361, [0, 1])] [0, 1]) (-1) 1,
    -- 2504: del x131
    .del 361,
    -- 2505: x135 = np.zeros((nocc[1], nocc[1], nvir[1], nvir[1]), dtype=types[float])
    .zeros 362 [4, 4, 5, 5],
    -- 2506: x135 += einsum("iabj->ijba", v.bbbb.ovvo)
    .add 362 (.ein [(55, [0, 1, 2, 3])] [0, 3, 2, 1]) 1 1,
    -- 2507: x135 += einsum("ijab->ijab", v.bbbb.oovv) * -1
    .add 362 (.ein [(56, [0, 1, 2, 3])] [0, 1, 2, 3]) (-1) 1,
    -- 2508: x136 = np.zeros((nocc[1], nvir[1]), dtype=types[float])
    .zeros 363 [4, 5],
    -- 2509: x136 += einsum("ia,ijba->jb", t1.bb, x135)
    .add 363 (.ein [(11, [0, 1]), (362, [0, 2, 3, 1])] [2, 3]) 1 1,
    -- 2510: x158 += einsum("ia->ia", x136)
    .add 171 (.ein [(363, [0, 1])] [0, 1]) 1 1,
    -- 2511: del x136
    .del 363,
    -- 2512: x243 = np.zeros((nocc[1], nocc[1], nocc[1], nvir[1]), dtype=types[float])
    .zeros 364 [4, 4, 4, 5],
    -- 2513: x243 += einsum("ia,jkba->ijkb", t1.bb, x135)
    .add 364 (.ein [(11, [0, 1]), (362, [2, 3, 4, 1])] [0, 2, 3, 4]) 1 1,
    -- 2514: x246 += einsum("ijka->ijka", x243)
    .add 188 (.ein [(364, [0, 1, 2, 3])] [0, 1, 2, 3]) 1 1,
    -- 2515: x257 += einsum("ijka->ijka", x243)
    .add 189 (.ein [(364, [0, 1, 2, 3])] [0, 1, 2, 3]) 1 1,
    -- 2516: del x243
    .del 364,
    -- 2517: x137 = np.zeros((nbos, nocc[1], nocc[1]), dtype=types[float])
    .zeros 365 [2, 4, 4],
    -- 2518: x137 += einsum("ia,wja->wji", t1.bb, g.bb.bov)
    .add 365 (.ein [(11, [0, 1]), (6, [2, 3, 1])] [2, 3, 0]) 1 1,
    -- 2519: x138 = np.zeros((nbos, nocc[1], nocc[1]), dtype=types[float])
    .zeros 366 [2, 4, 4],
    -- 2520: x138 += einsum("wij->wij", x137)
    .add 366 (.ein [(365, [0, 1, 2])] [0, 1, 2]) 1 1,
    -- 2521: x528 = np.zeros((nbos, nocc[1], nocc[1]), dtype=types[float])
    .zeros 367 [2, 4, 4],
    -- 2522: x528 += einsum("wij->wij", x137)
    .add 367 (.ein [(365, [0, 1, 2])] [0, 1, 2]) 1 1,
    -- 2523: del x137
    .del 365,
    -- 2524: x138 += einsum("wij->wij", g.bb.boo)
    .add 366 (.ein [(4, [0, 1, 2])] [0, 1, 2]) 1 1,
    -- 2525: x139 = np.zeros((nocc[1], nvir[1]), dtype=types[float])
    .zeros 368 [4, 5],
    -- 2526: x139 += einsum("wia,wij->ja", u11.bb, x138)
    .add 368 (.ein [(46, [0, 1, 2]), (366, [0, 1, 3])] [3, 2]) 1 1,
    -- 2527: x158 += einsum("ia->ia", x139) * -1
    .add 171 (.ein [(368, [0, 1])] [0, 1]) (-1) 1,
    -- 2528: del x139
    .del 368,
    -- 2529: x140 = np.zeros((nocc[1], nocc[1]), dtype=types[float])
    .zeros 369 [4, 4],
    -- 2530: x140 += einsum("w,wij->ij", s1, g.bb.boo)
    .add 369 (.ein [(19, [0]), (4, [0, 1, 2])] [1, 2]) 1 1,
    -- 2531: x149 += einsum("ij->ij", x140)
    .add 304 (.ein [(369, [0, 1])] [0, 1]) 1 1,
    -- 2532: x396 = np.zeros((nocc[1], nocc[1]), dtype=types[float])
    .zeros 370 [4, 4],
    -- 2533: x396 += einsum("ij->ij", x140)
    .add 370 (.ein [(369, [0, 1])] [0, 1]) 1 1,
    -- 2534: del x140
    .del 369,
    -- 2535: x141 = np.zeros((nocc[1], nocc[1]), dtype=types[float])
    .zeros 371 [4, 4],
    -- 2536: x141 += einsum("wia,wja->ij", g.bb.bov, u11.bb)
    .add 371 (.ein [(6, [0, 1, 2]), (46, [0, 3, 2])] [1, 3]) 1 1,
    -- 2537: x149 += einsum("ij->ij", x141)
    .add 304 (.ein [(371, [0, 1])] [0, 1]) 1 1,
    -- 2538: x396 += einsum("ij->ij", x141)
    .add 370 (.ein [(371, [0, 1])] [0, 1]) 1 1,
    -- 2539: del x141
    .del 371,
    -- 2540: x142 = np.zeros((nocc[1], nocc[1]), dtype=types[float])
    .zeros 372 [4, 4],
    -- 2541: x142 += einsum("ia,iajk->jk", t1.aa, v.aabb.ovoo)
    .add 372 (.ein [(12, [0, 1]), (13, [0, 1, 2, 3])] [2, 3]) 1 1,
    -- 2542: x149 += einsum("ij->ij", x142)
    .add 304 (.ein [(372, [0, 1])] [0, 1]) 1 1,
    -- 2543: x400 = np.zeros((nocc[1], nocc[1]), dtype=types[float])
    .zeros 373 [4, 4],
    -- 2544: x400 += einsum("ij->ij", x142)
    .add 373 (.ein [(372, [0, 1])] [0, 1]) 1 1,
    -- 2545: del x142
    .del 372,
    -- 2546: x143 = np.zeros((nocc[1], nocc[1]), dtype=types[float])
    .zeros 374 [4, 4],
    -- 2547: x143 += einsum("ijab,iakb->jk", t2.abab, v.aabb.ovov)
    .add 374 (.ein [(9, [0, 1, 2, 3]), (17, [0, 2, 4, 3])] [1, 4]) 1 1,
    -- 2548: x149 += einsum("ij->ji", x143)
    .add 304 (.ein [(374, [0, 1])] [1, 0]) 1 1,
    -- 2549: x429 += einsum("ij->ij", x143)
    .add 293 (.ein [(374, [0, 1])] [0, 1]) 1 1,
    -- 2550: del x143
    .del 374,
    -- 2551: x430 = np.zeros((nocc[1], nocc[1], nvir[1], nvir[1]), dtype=types[float])
    .zeros 375 [4, 4, 5, 5],
    -- 2552: x430 += einsum("ij,abik->kjab", x429, l2.bbbb)
    .add 375 (.ein [(293, [0, 1]), (33, [2, 3, 0, 4])] [4, 1, 2, 3]) 1 1,
    -- 2553: del x429
    .del 293,
    -- 2554: x439 = np.zeros((nocc[1], nocc[1], nvir[1], nvir[1]), dtype=types[float])
    .zeros 376 [4, 4, 5, 5],
    -- 2555: x439 += einsum("ijab->ijba", x430)
    .add 376 (.ein [(375, [0, 1, 2, 3])] [0, 1, 3, 2]) 1 1,
    -- 2556: del x430
    .del 375,
    -- 2557: x144 = np.zeros((nocc[1], nocc[1], nvir[1], nvir[1]), dtype=types[float])
    .zeros 377 [4, 4, 5, 5],
    -- 2558: x144 += einsum("iajb->jiab", v.bbbb.ovov)
    .add 377 (.ein [(45, [0, 1, 2, 3])] [2, 0, 1, 3]) 1 1,
    -- 2559: x144 += einsum("iajb->jiba", v.bbbb.ovov) * -1
    .add 377 (.ein [(45, [0, 1, 2, 3])] [2, 0, 3, 1]) (-1) 1,
    -- 2560: x145 = np.zeros((nocc[1], nocc[1]), dtype=types[float])
    .zeros 378 [4, 4],
    -- 2561: x145 += einsum("ijab,ikab->jk", t2.bbbb, x144)
    .add 378 (.ein [(31, [0, 1, 2, 3]), (377, [0, 4, 2, 3])] [1, 4]) 1 1,
    -- 2562: x149 += einsum("ij->ji", x145) * -1
    .add 304 (.ein [(378, [0, 1])] [1, 0]) (-1) 1,
    -- 2563: del x145
    .del 378,
    -- 2564: x432 = np.zeros((nvir[1], nvir[1]), dtype=types[float])
    .zeros 379 [5, 5],
    -- 2565: x432 += einsum("ijab,ijac->bc", t2.bbbb, x144)
    .add 379 (.ein [(31, [0, 1, 2, 3]), (377, [0, 1, 2, 4])] [3, 4]) 1 1,
    -- 2566: x433 = np.zeros((nvir[1], nvir[1]), dtype=types[float])
    .zeros 380 [5, 5],
    -- 2567: x433 += einsum("ab->ab", x432) * -1
    .add 380 (.ein [(379, [0, 1])] [0, 1]) (-1) 1,
    -- 2568: del x432
    .del 379,
    -- 2569: x462 = np.zeros((nocc[1], nocc[1], nvir[1], nvir[1]), dtype=types[float])
    .zeros 381 [4, 4, 5, 5],
    -- 2570: x462 += einsum("ijab,ikcb->kjca", x144, x54)
    .add 381 (.ein [(377, [0, 1, 2, 3]), (229, [0, 4, 5, 3])] [4, 1, 5, 2]) 1 1,
    -- 2571: x464 = np.zeros((nocc[1], nocc[1], nvir[1], nvir[1]), dtype=types[float])
    .zeros 382 [4, 4, 5, 5],
    -- 2572: x464 += einsum("ijab->jiab", x462)
    .add 382 (.ein [(381, [0, 1, 2, 3])] [1, 0, 2, 3]) 1 1,
    -- 2573: del x462
    .del 381,
    -- 2574: x146 = np.zeros((nocc[1], nocc[1], nocc[1], nvir[1]), dtype=types[float])
    .zeros 383 [4, 4, 4, 5],
    -- 2575: x146 += einsum("ijka->ikja", v.bbbb.ooov)
    .add 383 (.ein [(54, [0, 1, 2, 3])] [0, 2, 1, 3]) 1 1,
    -- 2576: x146 += einsum("ijka->kija", v.bbbb.ooov) * -1
    .add 383 (.ein [(54, [0, 1, 2, 3])] [2, 0, 1, 3]) (-1) 1,
    -- 2577: x147 = np.zeros((nocc[1], nocc[1]), dtype=types[float])
    .zeros 384 [4, 4],
    -- 2578: x147 += einsum("ia,ijka->jk", t1.bb, x146)
    .add 384 (.ein [(11, [0, 1]), (383, [0, 2, 3, 1])] [2, 3]) 1 1,
    -- 2579: x149 += einsum("ij->ij", x147) * -1
    .add 304 (.ein [(384, [0, 1])] [0, 1]) (-1) 1,
    -- 2580: del x147
    .del 384,
    -- 2581: x285 += einsum("wia,ijka->wjk", u11.bb, x146) * -1
    .add 306 (.ein [(46, [0, 1, 2]), (383, [1, 3, 4, 2])] [0, 3, 4]) (-1) 1,
    -- 2582: x149 += einsum("ij->ij", f.bb.oo)
    .add 304 (.ein [(57, [0, 1])] [0, 1]) 1 1,
    -- 2583: x150 = np.zeros((nocc[1], nvir[1]), dtype=types[float])
    .zeros 385 [4, 5],
    -- 2584: x150 += einsum("ia,ij->ja", t1.bb, x149)
    .add 385 (.ein [(11, [0, 1]), (304, [0, 2])] [2, 1]) 1 1,
    -- 2585: x158 += einsum("ia->ia", x150) * -1
    .add 171 (.ein [(385, [0, 1])] [0, 1]) (-1) 1,
    -- 2586: del x150
    .del 385,
    -- 2587: x493 = np.zeros((nocc[0], nocc[1], nvir[0], nvir[1]), dtype=types[float])
    .zeros 386 [0, 4, 1, 5],
    -- 2588: x493 += einsum("ij,abkj->kiab", x149, l2.abab)
    .add 386 (.ein [(304, [0, 1]), (8, [2, 3, 4, 1])] [4, 0, 2, 3]) 1 1,
    -- 2589: l2new_baba += einsum("ijab->baji", x493) * -1
    .add 92 (.ein [(386, [0, 1, 2, 3])] [3, 2, 1, 0]) (-1) 1,
    -- 2590: l2new_abab += einsum("ijab->abij", x493) * -1
    .add 93 (.ein [(386, [0, 1, 2, 3])] [2, 3, 0, 1]) (-1) 1,
    -- 2591: del x493
    .del 386,
    -- 2592: l1new_bb += einsum("ai,ji->aj", l1.bb, x149) * -1
    .add 83 (.ein [(39, [0, 1]), (304, [2, 1])] [0, 2]) (-1) 1,
    -- 2593: del x149
    .del 304,
    -- 2594: x151 = np.zeros((nvir[1], nvir[1]), dtype=types[float])
    .zeros 387 [5, 5],
    -- 2595: x151 += einsum("w,wab->ab", s1, g.bb.bvv)
    .add 387 (.ein [(19, [0]), (7, [0, 1, 2])] [1, 2]) 1 1,
    -- 2596: x155 = np.zeros((nvir[1], nvir[1]), dtype=types[float])
    .zeros 388 [5, 5],
    -- 2597: x155 += einsum("ab->ab", x151)
    .add 388 (.ein [(387, [0, 1])] [0, 1]) 1 1,
    -- 2598: x389 = np.zeros((nvir[1], nvir[1]), dtype=types[float])
    .zeros 389 [5, 5],
    -- 2599: x389 += einsum("ab->ab", x151)
    .add 389 (.ein [(387, [0, 1])] [0, 1]) 1 1,
    -- 2600: x490 += einsum("ab->ab", x151)
    .add 300 (.ein [(387, [0, 1])] [0, 1]) 1 1,
    -- 2601: del x151
    .del 387,
    -- 2602: x152 = np.zeros((nvir[1], nvir[1]), dtype=types[float])
    .zeros 390 [5, 5],
    -- 2603: x152 += einsum("ia,iabc->bc", t1.aa, v.aabb.ovvv)
    .add 390 (.ein [(12, [0, 1]), (10, [0, 1, 2, 3])] [2, 3]) 1 1,
    -- 2604: x155 += einsum("ab->ab", x152)
    .add 388 (.ein [(390, [0, 1])] [0, 1]) 1 1,
    -- 2605: x392 = np.zeros((nvir[1], nvir[1]), dtype=types[float])
    .zeros 391 [5, 5],
    -- 2606: x392 += einsum("ab->ab", x152)
    .add 391 (.ein [(390, [0, 1])] [0, 1]) 1 1,
    -- 2607: x490 += einsum("ab->ab", x152)
    .add 300 (.ein [(390, [0, 1])] [0, 1]) 1 1,
    -- 2608: del x152
    .del 390,
    -- 2609: x153 = np.zeros((nocc[1], nvir[1], nvir[1], nvir[1]), dtype=types[float])
    .zeros 392 [4, 5, 5, 5],
    -- 2610: x153 += einsum("iabc->ibca", v.bbbb.ovvv)
    .add 392 (.ein [(32, [0, 1, 2, 3])] [0, 2, 3, 1]) 1 1,
    -- 2611: x153 += einsum("iabc->ibac", v.bbbb.ovvv) * -1
    .add 392 (.ein [(32, [0, 1, 2, 3])] [0, 2, 1, 3]) (-1) 1,
    -- 2612: x154 = np.zeros((nvir[1], nvir[1]), dtype=types[float])
    .zeros 393 [5, 5],
    -- 2613: x154 += einsum("ia,ibac->bc", t1.bb, x153)
    .add 393 (.ein [(11, [0, 1]), (392, [0, 2, 1, 3])] [2, 3]) 1 1,
    -- 2614: x155 += einsum("ab->ab", x154) * -1
    .add 388 (.ein [(393, [0, 1])] [0, 1]) (-1) 1,
    -- 2615: x490 += einsum("ab->ab", x154) * -1
    .add 300 (.ein [(393, [0, 1])] [0, 1]) (-1) 1,
    -- 2616: del x154
    .del 393,
    -- 2617: x155 += einsum("ab->ab", f.bb.vv)
    .add 388 (.ein [(58, [0, 1])] [0, 1]) 1 1,
    -- 2618: x156 = np.zeros((nocc[1], nvir[1]), dtype=types[float])
    .zeros 394 [4, 5],
    -- 2619: x156 += einsum("ia,ba->ib", t1.bb, x155)
    .add 394 (.ein [(11, [0, 1]), (388, [2, 1])] [0, 2]) 1 1,
    -- 2620: x158 += einsum("ia->ia", x156)
    .add 171 (.ein [(394, [0, 1])] [0, 1]) 1 1,
    -- 2621: del x156
    .del 394,
    -- 2622: l1new_bb += einsum("ai,ab->bi", l1.bb, x155)
    .add 83 (.ein [(39, [0, 1]), (388, [0, 2])] [2, 1]) 1 1,
    -- 2623: del x155
    .del 388,
    -- 2624: x158 += einsum("ai->ia", f.bb.vo)
    .add 171 (.ein [(59, [0, 1])] [1, 0]) 1 1,
    -- 2625: l1new_aa += einsum("ia,baji->bj", x158, l2.abab)
    .add 78 (.ein [(171, [0, 1]), (8, [2, 1, 3, 0])] [2, 3]) 1 1,
    -- 2626: ls1new += einsum("ia,wai->w", x158, lu11.bb)
    .add 339 (.ein [(171, [0, 1]), (60, [2, 1, 0])] [2]) 1 1,
    -- 2627: x159 = np.zeros((nocc[0], nvir[0]), dtype=types[float])
    .zeros 395 [0, 1],
    -- 2628: x159 += einsum("w,wia->ia", ls1, u11.aa)
    .add 395 (.ein [(34, [0]), (25, [0, 1, 2])] [1, 2]) 1 1,
    -- 2629: x169 += einsum("ia->ia", x159) * -1
    .add 213 (.ein [(395, [0, 1])] [0, 1]) (-1) 1,
    -- 2630: del x159
    .del 395,
    -- 2631: x160 = np.zeros((nocc[0], nvir[0]), dtype=types[float])
    .zeros 396 [0, 1],
    -- 2632: x160 += einsum("ai,jiba->jb", l1.bb, t2.abab)
    .add 396 (.ein [(39, [0, 1]), (9, [2, 1, 3, 0])] [2, 3]) 1 1,
    -- 2633: x169 += einsum("ia->ia", x160) * -1
    .add 213 (.ein [(396, [0, 1])] [0, 1]) (-1) 1,
    -- 2634: del x160
    .del 396,
    -- 2635: x161 = np.zeros((nbos, nocc[0], nocc[0]), dtype=types[float])
    .zeros 397 [2, 0, 0],
    -- 2636: x161 += einsum("ia,waj->wji", t1.aa, lu11.aa)
    .add 397 (.ein [(12, [0, 1]), (53, [2, 1, 3])] [2, 3, 0]) 1 1,
    -- 2637: x162 = np.zeros((nocc[0], nvir[0]), dtype=types[float])
    .zeros 398 [0, 1],
    -- 2638: x162 += einsum("wia,wij->ja", u11.aa, x161)
    .add 398 (.ein [(25, [0, 1, 2]), (397, [0, 1, 3])] [3, 2]) 1 1,
    -- 2639: x169 += einsum("ia->ia", x162)
    .add 213 (.ein [(398, [0, 1])] [0, 1]) 1 1,
    -- 2640: del x162
    .del 398,
    -- 2641: x166 = np.zeros((nocc[0], nocc[0]), dtype=types[float])
    .zeros 399 [0, 0],
    -- 2642: x166 += einsum("wai,wja->ij", lu11.aa, u11.aa)
    .add 399 (.ein [(53, [0, 1, 2]), (25, [0, 3, 1])] [2, 3]) 1 1,
    -- 2643: x167 += einsum("ij->ij", x166)
    .add 98 (.ein [(399, [0, 1])] [0, 1]) 1 1,
    -- 2644: x168 = np.zeros((nocc[0], nvir[0]), dtype=types[float])
    .zeros 400 [0, 1],
    -- 2645: x168 += einsum("ia,ij->ja", t1.aa, x167)
    .add 400 (.ein [(12, [0, 1]), (98, [0, 2])] [2, 1]) 1 1,
    -- 2646: x169 += einsum("ia->ia", x168)
    .add 213 (.ein [(400, [0, 1])] [0, 1]) 1 1,
    -- 2647: del x168
    .del 400,
    -- 2648: x498 = np.zeros((nocc[0], nocc[1], nvir[0], nvir[1]), dtype=types[float])
    .zeros 401 [0, 4, 1, 5],
    -- 2649: x498 += einsum("ij,jakb->ikab", x167, v.aabb.ovov)
    .add 401 (.ein [(98, [0, 1]), (17, [1, 2, 3, 4])] [0, 3, 2, 4]) 1 1,
    -- 2650: l2new_baba += einsum("ijab->baji", x498) * -1
    .add 92 (.ein [(401, [0, 1, 2, 3])] [3, 2, 1, 0]) (-1) 1,
    -- 2651: l2new_abab += einsum("ijab->abij", x498) * -1
    .add 93 (.ein [(401, [0, 1, 2, 3])] [2, 3, 0, 1]) (-1) 1,
    -- 2652: del x498
    .del 401,
    -- 2653: l1new_aa += einsum("ij,jkia->ak", x167, x105) * -1
    .add 78 (.ein [(98, [0, 1]), (320, [1, 2, 0, 3])] [3, 2]) (-1) 1,
    -- 2654: del x105
    .del 320,
    -- 2655: l1new_bb += einsum("ij,jika->ak", x167, v.aabb.ooov) * -1
    .add 83 (.ein [(98, [0, 1]), (14, [1, 0, 2, 3])] [3, 2]) (-1) 1,
    -- 2656: ls1new += einsum("ij,wji->w", x167, g.aa.boo) * -1
    .add 339 (.ein [(98, [0, 1]), (0, [2, 1, 0])] [2]) (-1) 1,
    -- 2657: del x167
    .del 98,
    -- 2658: x209 += einsum("ij->ij", x166)
    .add 147 (.ein [(399, [0, 1])] [0, 1]) 1 1,
    -- 2659: x210 = np.zeros((nbos, nocc[0], nocc[0]), dtype=types[float])
    .zeros 402 [2, 0, 0],
    -- 2660: x210 += einsum("w,ij->wij", s1, x209)
    .add 402 (.ein [(19, [0]), (147, [1, 2])] [0, 1, 2]) 1 1,
    -- 2661: del x209
    .del 147,
    -- 2662: x220 += einsum("ij->ij", x166)
    .add 99 (.ein [(399, [0, 1])] [0, 1]) 1 1,
    -- 2663: x335 += einsum("ij->ij", x166)
    .add 100 (.ein [(399, [0, 1])] [0, 1]) 1 1,
    -- 2664: del x166
    .del 399,
    -- 2665: x336 = np.zeros((nocc[0], nocc[0], nvir[0], nvir[0]), dtype=types[float])
    .zeros 403 [0, 0, 1, 1],
    -- 2666: x336 += einsum("ij,jakb->ikab", x335, v.aaaa.ovov)
    .add 403 (.ein [(100, [0, 1]), (24, [1, 2, 3, 4])] [0, 3, 2, 4]) 1 1,
    -- 2667: del x335
    .del 100,
    -- 2668: x342 += einsum("ijab->ijba", x336)
    .add 90 (.ein [(403, [0, 1, 2, 3])] [0, 1, 3, 2]) 1 1,
    -- 2669: del x336
    .del 403,
    -- 2670: x169 += einsum("ia->ia", t1.aa) * -1
    .add 213 (.ein [(12, [0, 1])] [0, 1]) (-1) 1,
    -- 2671: l1new_bb += einsum("ia,iajb->bj", x169, v.aabb.ovov) * -1
    .add 83 (.ein [(213, [0, 1]), (17, [0, 1, 2, 3])] [3, 2]) (-1) 1,
    -- 2672: ls1new += einsum("ia,wia->w", x169, g.aa.bov) * -1
    .add 339 (.ein [(213, [0, 1]), (2, [2, 0, 1])] [2]) (-1) 1,
    -- 2673: x170 = np.zeros((nocc[0], nocc[0], nvir[0], nvir[0]), dtype=types[float])
    .zeros 404 [0, 0, 1, 1],
    -- 2674: x170 += einsum("iajb->jiab", v.aaaa.ovov)
    .add 404 (.ein [(24, [0, 1, 2, 3])] [2, 0, 1, 3]) 1 1,
    -- 2675: x170 -= einsum("iajb->jiba", v.aaaa.ovov)
    .add 404 (.ein [(24, [0, 1, 2, 3])] [2, 0, 3, 1]) (-1) 1,
    -- 2676: l1new_aa += einsum("ia,ijba->bj", x169, x170) * -1
    .add 78 (.ein [(213, [0, 1]), (404, [0, 2, 3, 1])] [3, 2]) (-1) 1,
    -- 2677: del x169
    .del 213,
    -- 2678: del x170
    .del 404,
    -- 2679: x171 = np.zeros((nvir[0], nvir[0]), dtype=types[float])
    .zeros 405 [1, 1],
    -- 2680: x171 += einsum("ai,ib->ab", l1.aa, t1.aa)
    .add 405 (.ein [(18, [0, 1]), (12, [1, 2])] [0, 2]) 1 1,
    -- 2681: x175 += einsum("ab->ab", x171)
    .add 215 (.ein [(405, [0, 1])] [0, 1]) 1 1,
    -- 2682: del x171
    .del 405,
    -- 2683: x172 = np.zeros((nvir[0], nvir[0]), dtype=types[float])
    .zeros 406 [1, 1],
    -- 2684: x172 += einsum("wai,wib->ab", lu11.aa, u11.aa)
    .add 406 (.ein [(53, [0, 1, 2]), (25, [0, 2, 3])] [1, 3]) 1 1,
    -- 2685: x175 += einsum("ab->ab", x172)
    .add 215 (.ein [(406, [0, 1])] [0, 1]) 1 1,
    -- 2686: x300 = np.zeros((nocc[0], nocc[0], nvir[0], nvir[0]), dtype=types[float])
    .zeros 407 [0, 0, 1, 1],
    -- 2687: x300 += einsum("ab,icjb->ijac", x172, v.aaaa.ovov)
    .add 407 (.ein [(406, [0, 1]), (24, [2, 3, 4, 1])] [2, 4, 0, 3]) 1 1,
    -- 2688: x342 += einsum("ijab->ijab", x300)
    .add 90 (.ein [(407, [0, 1, 2, 3])] [0, 1, 2, 3]) 1 1,
    -- 2689: del x300
    .del 407,
    -- 2690: x494 += einsum("ab->ab", x172)
    .add 217 (.ein [(406, [0, 1])] [0, 1]) 1 1,
    -- 2691: del x172
    .del 406,
    -- 2692: x173 = np.zeros((nvir[0], nvir[0]), dtype=types[float])
    .zeros 408 [1, 1],
    -- 2693: x173 += einsum("abij,ijcb->ac", l2.abab, t2.abab)
    .add 408 (.ein [(8, [0, 1, 2, 3]), (9, [2, 3, 4, 1])] [0, 4]) 1 1,
    -- 2694: x175 += einsum("ab->ab", x173)
    .add 215 (.ein [(408, [0, 1])] [0, 1]) 1 1,
    -- 2695: l1new_aa += einsum("ab,iabc->ci", x175, x51) * -1
    .add 78 (.ein [(215, [0, 1]), (226, [2, 0, 1, 3])] [3, 2]) (-1) 1,
    -- 2696: del x51
    .del 226,
    -- 2697: l1new_bb += einsum("ab,icab->ci", x175, v.bbaa.ovvv)
    .add 83 (.ein [(215, [0, 1]), (15, [2, 3, 0, 1])] [3, 2]) 1 1,
    -- 2698: ls1new += einsum("ab,wab->w", x175, g.aa.bvv)
    .add 339 (.ein [(215, [0, 1]), (3, [2, 0, 1])] [2]) 1 1,
    -- 2699: del x175
    .del 215,
    -- 2700: x358 += einsum("ab->ab", x173)
    .add 216 (.ein [(408, [0, 1])] [0, 1]) 1 1,
    -- 2701: x359 = np.zeros((nocc[0], nocc[0], nvir[0], nvir[0]), dtype=types[float])
    .zeros 409 [0, 0, 1, 1],
    -- 2702: x359 += einsum("ab,ibjc->ijac", x358, v.aaaa.ovov)
    .add 409 (.ein [(216, [0, 1]), (24, [2, 1, 3, 4])] [2, 3, 0, 4]) 1 1,
    -- 2703: del x358
    .del 216,
    -- 2704: x362 += einsum("ijab->jiab", x359) * -1
    .add 209 (.ein [(409, [0, 1, 2, 3])] [1, 0, 2, 3]) (-1) 1,
    -- 2705: del x359
    .del 409,
    -- 2706: x494 += einsum("ab->ab", x173)
    .add 217 (.ein [(408, [0, 1])] [0, 1]) 1 1,
    -- 2707: del x173
    .del 408,
    -- 2708: x495 = np.zeros((nocc[0], nocc[1], nvir[0], nvir[1]), dtype=types[float])
    .zeros 410 [0, 4, 1, 5],
    -- 2709: x495 += einsum("ab,ibjc->ijac", x494, v.aabb.ovov)
    .add 410 (.ein [(217, [0, 1]), (17, [2, 1, 3, 4])] [2, 3, 0, 4]) 1 1,
    -- 2710: del x494
    .del 217,
    -- 2711: l2new_baba += einsum("ijab->baji", x495) * -1
    .add 92 (.ein [(410, [0, 1, 2, 3])] [3, 2, 1, 0]) (-1) 1,
    -- 2712: l2new_abab += einsum("ijab->abij", x495) * -1
    .add 93 (.ein [(410, [0, 1, 2, 3])] [2, 3, 0, 1]) (-1) 1,
    -- 2713: del x495
    .del 410,
    -- 2714: x176 = np.zeros((nocc[1], nvir[1]), dtype=types[float])
    .zeros 411 [4, 5],
    -- 2715: x176 += einsum("w,wia->ia", ls1, u11.bb)
    .add 411 (.ein [(34, [0]), (46, [0, 1, 2])] [1, 2]) 1 1,
    -- 2716: x190 += einsum("ia->ia", x176) * -1
    .add 87 (.ein [(411, [0, 1])] [0, 1]) (-1) 1,
    -- 2717: del x176
    .del 411,
    -- 2718: x177 = np.zeros((nocc[1], nvir[1]), dtype=types[float])
    .zeros 412 [4, 5],
    -- 2719: x177 += einsum("ai,ijab->jb", l1.aa, t2.abab)
    .add 412 (.ein [(18, [0, 1]), (9, [1, 2, 0, 3])] [2, 3]) 1 1,
    -- 2720: x190 += einsum("ia->ia", x177) * -1
    .add 87 (.ein [(412, [0, 1])] [0, 1]) (-1) 1,
    -- 2721: del x177
    .del 412,
    -- 2722: x178 = np.zeros((nbos, nocc[1], nocc[1]), dtype=types[float])
    .zeros 413 [2, 4, 4],
    -- 2723: x178 += einsum("ia,waj->wji", t1.bb, lu11.bb)
    .add 413 (.ein [(11, [0, 1]), (60, [2, 1, 3])] [2, 3, 0]) 1 1,
    -- 2724: x179 = np.zeros((nocc[1], nvir[1]), dtype=types[float])
    .zeros 414 [4, 5],
    -- 2725: x179 += einsum("wia,wij->ja", u11.bb, x178)
    .add 414 (.ein [(46, [0, 1, 2]), (413, [0, 1, 3])] [3, 2]) 1 1,
    -- 2726: x190 += einsum("ia->ia", x179)
    .add 87 (.ein [(414, [0, 1])] [0, 1]) 1 1,
    -- 2727: del x179
    .del 414,
    -- 2728: x181 = np.zeros((nocc[1], nocc[1], nocc[1], nvir[1]), dtype=types[float])
    .zeros 415 [4, 4, 4, 5],
    -- 2729: x181 += einsum("ia,abjk->kjib", t1.bb, l2.bbbb)
    .add 415 (.ein [(11, [0, 1]), (33, [1, 2, 3, 4])] [4, 3, 0, 2]) 1 1,
    -- 2730: x182 = np.zeros((nocc[1], nvir[1]), dtype=types[float])
    .zeros 416 [4, 5],
    -- 2731: x182 += einsum("ijka,jiba->kb", x181, x54)
    .add 416 (.ein [(415, [0, 1, 2, 3]), (229, [1, 0, 4, 3])] [2, 4]) 1 1,
    -- 2732: x190 += einsum("ia->ia", x182) * -1
    .add 87 (.ein [(416, [0, 1])] [0, 1]) (-1) 1,
    -- 2733: del x182
    .del 416,
    -- 2734: x260 = np.zeros((nocc[1], nocc[1], nocc[1], nvir[1]), dtype=types[float])
    .zeros 417 [4, 4, 4, 5],
    -- 2735: x260 += einsum("ijka->ijka", x181)
    .add 417 (.ein [(415, [0, 1, 2, 3])] [0, 1, 2, 3]) 1 1,
    -- 2736: x260 += einsum("ijka->jika", x181) * -1
    .add 417 (.ein [(415, [0, 1, 2, 3])] [1, 0, 2, 3]) (-1) 1,
    -- 2737: x262 += einsum("ijka,ilab->jlkb", x260, x35)
    .add 88 (.ein [(417, [0, 1, 2, 3]), (169, [0, 4, 3, 5])] [1, 4, 2, 5]) 1 1,
    -- 2738: x263 = np.zeros((nocc[1], nocc[1], nvir[1], nvir[1]), dtype=types[float])
    .zeros 418 [4, 4, 5, 5],
    -- 2739: x263 += einsum("ia,ijkb->jkba", t1.bb, x260) * -1
    .add 418 (.ein [(11, [0, 1]), (417, [0, 2, 3, 4])] [2, 3, 4, 1]) (-1) 1,
    -- 2740: x267 += einsum("ijab,jklb->ikla", t2.abab, x260) * -1
    .add 95 (.ein [(9, [0, 1, 2, 3]), (417, [1, 4, 5, 3])] [0, 4, 5, 2]) (-1) 1,
    -- 2741: l1new_bb += einsum("ijab,jkia->bk", x135, x260) * -1
    .add 83 (.ein [(362, [0, 1, 2, 3]), (417, [1, 4, 0, 2])] [3, 4]) (-1) 1,
    -- 2742: del x135
    .del 362,
    -- 2743: l2new_baba += einsum("ijka,likb->abjl", x260, x36)
    .add 92 (.ein [(417, [0, 1, 2, 3]), (181, [4, 0, 2, 5])] [3, 5, 1, 4]) 1 1,
    -- 2744: del x260
    .del 417,
    -- 2745: x269 = np.zeros((nocc[1], nocc[1], nocc[1], nocc[1]), dtype=types[float])
    .zeros 419 [4, 4, 4, 4],
    -- 2746: x269 += einsum("ia,jkla->kjli", t1.bb, x181)
    .add 419 (.ein [(11, [0, 1]), (415, [2, 3, 4, 1])] [3, 2, 4, 0]) 1 1,
    -- 2747: x270 = np.zeros((nocc[1], nocc[1], nocc[1], nvir[1]), dtype=types[float])
    .zeros 420 [4, 4, 4, 5],
    -- 2748: x270 += einsum("ia,ijkl->jlka", t1.bb, x269)
    .add 420 (.ein [(11, [0, 1]), (419, [0, 2, 3, 4])] [2, 4, 3, 1]) 1 1,
    -- 2749: x271 = np.zeros((nocc[1], nocc[1], nocc[1], nvir[1]), dtype=types[float])
    .zeros 421 [4, 4, 4, 5],
    -- 2750: x271 += einsum("ijka->ijka", x270)
    .add 421 (.ein [(420, [0, 1, 2, 3])] [0, 1, 2, 3]) 1 1,
    -- 2751: del x270
    .del 420,
    -- 2752: x280 = np.zeros((nocc[1], nocc[1], nocc[1], nocc[1]), dtype=types[float])
    .zeros 422 [4, 4, 4, 4],
    -- 2753: x280 += einsum("ijkl->ijkl", x269) * -1
    .add 422 (.ein [(419, [0, 1, 2, 3])] [0, 1, 2, 3]) (-1) 1,
    -- 2754: x280 += einsum("ijkl->ijlk", x269)
    .add 422 (.ein [(419, [0, 1, 2, 3])] [0, 1, 3, 2]) 1 1,
    -- 2755: l1new_bb += einsum("ijka,ljki->al", v.bbbb.ooov, x280) * -1
    .add 83 (.ein [(54, [0, 1, 2, 3]), (422, [4, 1, 2, 0])] [3, 4]) (-1) 1,
    -- 2756: del x280
    .del 422,
    -- 2757: x417 = np.zeros((nocc[1], nocc[1], nvir[1], nvir[1]), dtype=types[float])
    .zeros 423 [4, 4, 5, 5],
    -- 2758: x417 += einsum("iajb,klij->klab", v.bbbb.ovov, x269)
    .add 423 (.ein [(45, [0, 1, 2, 3]), (419, [4, 5, 0, 2])] [4, 5, 1, 3]) 1 1,
    -- 2759: del x269
    .del 419,
    -- 2760: x420 = np.zeros((nocc[1], nocc[1], nvir[1], nvir[1]), dtype=types[float])
    .zeros 424 [4, 4, 5, 5],
    -- 2761: x420 += einsum("ijab->ijab", x417)
    .add 424 (.ein [(423, [0, 1, 2, 3])] [0, 1, 2, 3]) 1 1,
    -- 2762: del x417
    .del 423,
    -- 2763: x376 = np.zeros((nocc[1], nocc[1], nvir[1], nvir[1]), dtype=types[float])
    .zeros 425 [4, 4, 5, 5],
    -- 2764: x376 += einsum("iabc,jkib->kjac", v.bbbb.ovvv, x181)
    .add 425 (.ein [(32, [0, 1, 2, 3]), (415, [4, 5, 0, 2])] [5, 4, 1, 3]) 1 1,
    -- 2765: x415 -= einsum("ijab->ijab", x376)
    .add 235 (.ein [(425, [0, 1, 2, 3])] [0, 1, 2, 3]) (-1) 1,
    -- 2766: del x376
    .del 425,
    -- 2767: x385 = np.zeros((nocc[1], nocc[1], nocc[1], nvir[1]), dtype=types[float])
    .zeros 426 [4, 4, 4, 5],
    -- 2768: x385 -= einsum("ijka->ijka", x181)
    .add 426 (.ein [(415, [0, 1, 2, 3])] [0, 1, 2, 3]) (-1) 1,
    -- 2769: x385 += einsum("ijka->jika", x181)
    .add 426 (.ein [(415, [0, 1, 2, 3])] [1, 0, 2, 3]) 1 1,
    -- 2770: l2new_abab -= einsum("iajk,kljb->abil", v.aabb.ovoo, x385)
    .add 93 (.ein [(13, [0, 1, 2, 3]), (426, [3, 4, 2, 5])] [1, 5, 0, 4]) (-1) 1,
    -- 2771: x422 = np.zeros((nocc[1], nocc[1], nocc[1], nvir[1]), dtype=types[float])
    .zeros 427 [4, 4, 4, 5],
    -- 2772: x422 += einsum("ijka->ijka", x181) * -1
    .add 427 (.ein [(415, [0, 1, 2, 3])] [0, 1, 2, 3]) (-1) 1,
    -- 2773: x422 += einsum("ijka->jika", x181)
    .add 427 (.ein [(415, [0, 1, 2, 3])] [1, 0, 2, 3]) 1 1,
    -- 2774: x424 = np.zeros((nocc[1], nocc[1], nvir[1], nvir[1]), dtype=types[float])
    .zeros 428 [4, 4, 5, 5],
    -- 2775: x424 += einsum("ijka,jklb->ilab", x422, x423)
    .add 428 (.ein [(427, [0, 1, 2, 3]), (358, [1, 2, 4, 5])] [0, 4, 3, 5]) 1 1,
    -- 2776: del x423
    .del 358,
    -- 2777: x439 += einsum("ijab->ijab", x424)
    .add 376 (.ein [(428, [0, 1, 2, 3])] [0, 1, 2, 3]) 1 1,
    -- 2778: del x424
    .del 428,
    -- 2779: l2new_abab += einsum("ijka,jlkb->abil", x36, x422) * -1
    .add 93 (.ein [(181, [0, 1, 2, 3]), (427, [1, 4, 2, 5])] [3, 5, 0, 4]) (-1) 1,
    -- 2780: del x36
    .del 181,
    -- 2781: del x422
    .del 427,
    -- 2782: x438 = np.zeros((nocc[1], nocc[1], nvir[1], nvir[1]), dtype=types[float])
    .zeros 429 [4, 4, 5, 5],
    -- 2783: x438 += einsum("ia,jkib->jkba", x233, x181)
    .add 429 (.ein [(286, [0, 1]), (415, [2, 3, 0, 4])] [2, 3, 4, 1]) 1 1,
    -- 2784: x439 += einsum("ijab->ijab", x438)
    .add 376 (.ein [(429, [0, 1, 2, 3])] [0, 1, 2, 3]) 1 1,
    -- 2785: del x438
    .del 429,
    -- 2786: x485 = np.zeros((nocc[1], nocc[1], nocc[1], nvir[1]), dtype=types[float])
    .zeros 430 [4, 4, 4, 5],
    -- 2787: x485 += einsum("ijka->ijka", x181)
    .add 430 (.ein [(415, [0, 1, 2, 3])] [0, 1, 2, 3]) 1 1,
    -- 2788: x485 -= einsum("ijka->jika", x181)
    .add 430 (.ein [(415, [0, 1, 2, 3])] [1, 0, 2, 3]) (-1) 1,
    -- 2789: l2new_baba += einsum("iajk,kljb->bali", v.aabb.ovoo, x485)
    .add 92 (.ein [(13, [0, 1, 2, 3]), (430, [3, 4, 2, 5])] [5, 1, 4, 0]) 1 1,
    -- 2790: del x485
    .del 430,
    -- 2791: x184 = np.zeros((nocc[1], nocc[1]), dtype=types[float])
    .zeros 431 [4, 4],
    -- 2792: x184 += einsum("ai,ja->ij", l1.bb, t1.bb)
    .add 431 (.ein [(39, [0, 1]), (11, [2, 0])] [1, 2]) 1 1,
    -- 2793: x188 += einsum("ij->ij", x184)
    .add 173 (.ein [(431, [0, 1])] [0, 1]) 1 1,
    -- 2794: x408 = np.zeros((nocc[1], nocc[1]), dtype=types[float])
    .zeros 432 [4, 4],
    -- 2795: x408 += einsum("ij->ij", x184)
    .add 432 (.ein [(431, [0, 1])] [0, 1]) 1 1,
    -- 2796: l1new_bb += einsum("ij,ja->ai", x184, x297) * -1
    .add 83 (.ein [(431, [0, 1]), (282, [1, 2])] [2, 0]) (-1) 1,
    -- 2797: del x184
    .del 431,
    -- 2798: del x297
    .del 282,
    -- 2799: x185 = np.zeros((nocc[1], nocc[1]), dtype=types[float])
    .zeros 433 [4, 4],
    -- 2800: x185 += einsum("wai,wja->ij", lu11.bb, u11.bb)
    .add 433 (.ein [(60, [0, 1, 2]), (46, [0, 3, 1])] [2, 3]) 1 1,
    -- 2801: x188 += einsum("ij->ij", x185)
    .add 173 (.ein [(433, [0, 1])] [0, 1]) 1 1,
    -- 2802: x293 += einsum("ij->ij", x185)
    .add 175 (.ein [(433, [0, 1])] [0, 1]) 1 1,
    -- 2803: x408 += einsum("ij->ij", x185)
    .add 432 (.ein [(433, [0, 1])] [0, 1]) 1 1,
    -- 2804: x409 = np.zeros((nocc[1], nocc[1], nvir[1], nvir[1]), dtype=types[float])
    .zeros 434 [4, 4, 5, 5],
    -- 2805: x409 += einsum("ij,jakb->kiab", x408, v.bbbb.ovov)
    .add 434 (.ein [(432, [0, 1]), (45, [1, 2, 3, 4])] [3, 0, 2, 4]) 1 1,
    -- 2806: del x408
    .del 432,
    -- 2807: x415 += einsum("ijab->jiba", x409)
    .add 235 (.ein [(434, [0, 1, 2, 3])] [1, 0, 3, 2]) 1 1,
    -- 2808: del x409
    .del 434,
    -- 2809: l1new_bb += einsum("ij,ja->ai", x185, x233) * -1
    .add 83 (.ein [(433, [0, 1]), (286, [1, 2])] [2, 0]) (-1) 1,
    -- 2810: del x233
    .del 286,
    -- 2811: del x185
    .del 433,
    -- 2812: x186 = np.zeros((nocc[1], nocc[1]), dtype=types[float])
    .zeros 435 [4, 4],
    -- 2813: x186 += einsum("abij,ikab->jk", l2.abab, t2.abab)
    .add 435 (.ein [(8, [0, 1, 2, 3]), (9, [2, 4, 0, 1])] [3, 4]) 1 1,
    -- 2814: x188 += einsum("ij->ij", x186)
    .add 173 (.ein [(435, [0, 1])] [0, 1]) 1 1,
    -- 2815: x189 = np.zeros((nocc[1], nvir[1]), dtype=types[float])
    .zeros 436 [4, 5],
    -- 2816: x189 += einsum("ia,ij->ja", t1.bb, x188)
    .add 436 (.ein [(11, [0, 1]), (173, [0, 2])] [2, 1]) 1 1,
    -- 2817: x190 += einsum("ia->ia", x189)
    .add 87 (.ein [(436, [0, 1])] [0, 1]) 1 1,
    -- 2818: del x189
    .del 436,
    -- 2819: x499 = np.zeros((nocc[0], nocc[1], nvir[0], nvir[1]), dtype=types[float])
    .zeros 437 [0, 4, 1, 5],
    -- 2820: x499 += einsum("ij,kajb->kiab", x188, v.aabb.ovov)
    .add 437 (.ein [(173, [0, 1]), (17, [2, 3, 1, 4])] [2, 0, 3, 4]) 1 1,
    -- 2821: l2new_baba += einsum("ijab->baji", x499) * -1
    .add 92 (.ein [(437, [0, 1, 2, 3])] [3, 2, 1, 0]) (-1) 1,
    -- 2822: l2new_abab += einsum("ijab->abij", x499) * -1
    .add 93 (.ein [(437, [0, 1, 2, 3])] [2, 3, 0, 1]) (-1) 1,
    -- 2823: del x499
    .del 437,
    -- 2824: l1new_aa += einsum("ij,kaji->ak", x188, v.aabb.ovoo) * -1
    .add 78 (.ein [(173, [0, 1]), (13, [2, 3, 1, 0])] [3, 2]) (-1) 1,
    -- 2825: l1new_bb += einsum("ij,jkia->ak", x188, x146) * -1
    .add 83 (.ein [(173, [0, 1]), (383, [1, 2, 0, 3])] [3, 2]) (-1) 1,
    -- 2826: del x146
    .del 383,
    -- 2827: l1new_bb += einsum("ia,ji->aj", f.bb.ov, x188) * -1
    .add 83 (.ein [(47, [0, 1]), (173, [2, 0])] [1, 2]) (-1) 1,
    -- 2828: ls1new += einsum("ij,wji->w", x188, g.bb.boo) * -1
    .add 339 (.ein [(173, [0, 1]), (4, [2, 1, 0])] [2]) (-1) 1,
    -- 2829: del x188
    .del 173,
    -- 2830: x261 += einsum("ij->ij", x186)
    .add 174 (.ein [(435, [0, 1])] [0, 1]) 1 1,
    -- 2831: x262 += einsum("ia,jk->jika", t1.bb, x261)
    .add 88 (.ein [(11, [0, 1]), (174, [2, 3])] [2, 0, 3, 1]) 1 1,
    -- 2832: l1new_bb += einsum("ijka,jkba->bi", x262, x92)
    .add 83 (.ein [(88, [0, 1, 2, 3]), (288, [1, 2, 4, 3])] [4, 0]) 1 1,
    -- 2833: del x262
    .del 88,
    -- 2834: x267 += einsum("ia,jk->ijka", t1.aa, x261) * -1
    .add 95 (.ein [(12, [0, 1]), (174, [2, 3])] [0, 2, 3, 1]) (-1) 1,
    -- 2835: x437 = np.zeros((nocc[1], nocc[1], nvir[1], nvir[1]), dtype=types[float])
    .zeros 438 [4, 4, 5, 5],
    -- 2836: x437 += einsum("ij,jakb->kiab", x261, v.bbbb.ovov)
    .add 438 (.ein [(174, [0, 1]), (45, [1, 2, 3, 4])] [3, 0, 2, 4]) 1 1,
    -- 2837: del x261
    .del 174,
    -- 2838: x439 += einsum("ijab->jiba", x437) * -1
    .add 376 (.ein [(438, [0, 1, 2, 3])] [1, 0, 3, 2]) (-1) 1,
    -- 2839: del x437
    .del 438,
    -- 2840: x293 += einsum("ij->ij", x186)
    .add 175 (.ein [(435, [0, 1])] [0, 1]) 1 1,
    -- 2841: del x186
    .del 435,
    -- 2842: x294 = np.zeros((nbos, nocc[1], nocc[1]), dtype=types[float])
    .zeros 439 [2, 4, 4],
    -- 2843: x294 += einsum("w,ij->wij", s1, x293)
    .add 439 (.ein [(19, [0]), (175, [1, 2])] [0, 1, 2]) 1 1,
    -- 2844: del x293
    .del 175,
    -- 2845: x190 += einsum("ia->ia", t1.bb) * -1
    .add 87 (.ein [(11, [0, 1])] [0, 1]) (-1) 1,
    -- 2846: l1new_aa += einsum("ia,jbia->bj", x190, v.aabb.ovov) * -1
    .add 78 (.ein [(87, [0, 1]), (17, [2, 3, 0, 1])] [3, 2]) (-1) 1,
    -- 2847: l1new_bb += einsum("ia,ijba->bj", x190, x144) * -1
    .add 83 (.ein [(87, [0, 1]), (377, [0, 2, 3, 1])] [3, 2]) (-1) 1,
    -- 2848: del x144
    .del 377,
    -- 2849: ls1new += einsum("ia,wia->w", x190, g.bb.bov) * -1
    .add 339 (.ein [(87, [0, 1]), (6, [2, 0, 1])] [2]) (-1) 1,
    -- 2850: del x190
    .del 87,
    -- 2851: x191 = np.zeros((nvir[1], nvir[1]), dtype=types[float])
    .zeros 440 [5, 5],
    -- 2852: x191 += einsum("ai,ib->ab", l1.bb, t1.bb)
    .add 440 (.ein [(39, [0, 1]), (11, [1, 2])] [0, 2]) 1 1,
    -- 2853: x195 += einsum("ab->ab", x191)
    .add 177 (.ein [(440, [0, 1])] [0, 1]) 1 1,
    -- 2854: del x191
    .del 440,
    -- 2855: x192 = np.zeros((nvir[1], nvir[1]), dtype=types[float])
    .zeros 441 [5, 5],
    -- 2856: x192 += einsum("wai,wib->ab", lu11.bb, u11.bb)
    .add 441 (.ein [(60, [0, 1, 2]), (46, [0, 2, 3])] [1, 3]) 1 1,
    -- 2857: x195 += einsum("ab->ab", x192)
    .add 177 (.ein [(441, [0, 1])] [0, 1]) 1 1,
    -- 2858: x373 = np.zeros((nocc[1], nocc[1], nvir[1], nvir[1]), dtype=types[float])
    .zeros 442 [4, 4, 5, 5],
    -- 2859: x373 += einsum("ab,icjb->ijac", x192, v.bbbb.ovov)
    .add 442 (.ein [(441, [0, 1]), (45, [2, 3, 4, 1])] [2, 4, 0, 3]) 1 1,
    -- 2860: x415 += einsum("ijab->ijab", x373)
    .add 235 (.ein [(442, [0, 1, 2, 3])] [0, 1, 2, 3]) 1 1,
    -- 2861: del x373
    .del 442,
    -- 2862: x496 += einsum("ab->ab", x192)
    .add 179 (.ein [(441, [0, 1])] [0, 1]) 1 1,
    -- 2863: del x192
    .del 441,
    -- 2864: x193 = np.zeros((nvir[1], nvir[1]), dtype=types[float])
    .zeros 443 [5, 5],
    -- 2865: x193 += einsum("abij,ijac->bc", l2.abab, t2.abab)
    .add 443 (.ein [(8, [0, 1, 2, 3]), (9, [2, 3, 0, 4])] [1, 4]) 1 1,
    -- 2866: x195 += einsum("ab->ab", x193)
    .add 177 (.ein [(443, [0, 1])] [0, 1]) 1 1,
    -- 2867: l1new_aa += einsum("ab,icab->ci", x195, v.aabb.ovvv)
    .add 78 (.ein [(177, [0, 1]), (10, [2, 3, 0, 1])] [3, 2]) 1 1,
    -- 2868: l1new_bb += einsum("ab,iacb->ci", x195, x153) * -1
    .add 83 (.ein [(177, [0, 1]), (392, [2, 0, 3, 1])] [3, 2]) (-1) 1,
    -- 2869: del x153
    .del 392,
    -- 2870: ls1new += einsum("ab,wab->w", x195, g.bb.bvv)
    .add 339 (.ein [(177, [0, 1]), (7, [2, 0, 1])] [2]) 1 1,
    -- 2871: del x195
    .del 177,
    -- 2872: x435 += einsum("ab->ab", x193)
    .add 178 (.ein [(443, [0, 1])] [0, 1]) 1 1,
    -- 2873: x436 = np.zeros((nocc[1], nocc[1], nvir[1], nvir[1]), dtype=types[float])
    .zeros 444 [4, 4, 5, 5],
    -- 2874: x436 += einsum("ab,ibjc->ijca", x435, v.bbbb.ovov)
    .add 444 (.ein [(178, [0, 1]), (45, [2, 1, 3, 4])] [2, 3, 4, 0]) 1 1,
    -- 2875: del x435
    .del 178,
    -- 2876: x439 += einsum("ijab->jiba", x436) * -1
    .add 376 (.ein [(444, [0, 1, 2, 3])] [1, 0, 3, 2]) (-1) 1,
    -- 2877: del x436
    .del 444,
    -- 2878: x496 += einsum("ab->ab", x193)
    .add 179 (.ein [(443, [0, 1])] [0, 1]) 1 1,
    -- 2879: del x193
    .del 443,
    -- 2880: x497 = np.zeros((nocc[0], nocc[1], nvir[0], nvir[1]), dtype=types[float])
    .zeros 445 [0, 4, 1, 5],
    -- 2881: x497 += einsum("ab,icjb->ijca", x496, v.aabb.ovov)
    .add 445 (.ein [(179, [0, 1]), (17, [2, 3, 4, 1])] [2, 4, 3, 0]) 1 1,
    -- 2882: del x496
    .del 179,
    -- 2883: l2new_baba += einsum("ijab->baji", x497) * -1
    .add 92 (.ein [(445, [0, 1, 2, 3])] [3, 2, 1, 0]) (-1) 1,
    -- 2884: l2new_abab += einsum("ijab->abij", x497) * -1
    .add 93 (.ein [(445, [0, 1, 2, 3])] [2, 3, 0, 1]) (-1) 1,
    -- 2885: del x497
    .del 445,
    -- 2886: x196 = np.zeros((nbos, nocc[0], nvir[0]), dtype=types[float])
    .zeros 446 [2, 0, 1],
    -- 2887: x196 += einsum("wx,wia->xia", s2, g.aa.bov)
    .add 446 (.ein [(51, [0, 1]), (2, [0, 2, 3])] [1, 2, 3]) 1 1,
    -- 2888: x199 += einsum("wia->wia", x196)
    .add 123 (.ein [(446, [0, 1, 2])] [0, 1, 2]) 1 1,
    -- 2889: x502 += einsum("wia->wia", x196)
    .add 261 (.ein [(446, [0, 1, 2])] [0, 1, 2]) 1 1,
    -- 2890: del x196
    .del 446,
    -- 2891: x197 = np.zeros((nbos, nocc[0], nvir[0]), dtype=types[float])
    .zeros 447 [2, 0, 1],
    -- 2892: x197 += einsum("wia,jbia->wjb", u11.bb, v.aabb.ovov)
    .add 447 (.ein [(46, [0, 1, 2]), (17, [3, 4, 1, 2])] [0, 3, 4]) 1 1,
    -- 2893: x199 += einsum("wia->wia", x197)
    .add 123 (.ein [(447, [0, 1, 2])] [0, 1, 2]) 1 1,
    -- 2894: x211 += einsum("wia->wia", x197)
    .add 124 (.ein [(447, [0, 1, 2])] [0, 1, 2]) 1 1,
    -- 2895: x333 += einsum("wia->wia", x197)
    .add 260 (.ein [(447, [0, 1, 2])] [0, 1, 2]) 1 1,
    -- 2896: x334 = np.zeros((nocc[0], nocc[0], nvir[0], nvir[0]), dtype=types[float])
    .zeros 448 [0, 0, 1, 1],
    -- 2897: x334 += einsum("wai,wjb->ijab", lu11.aa, x333)
    .add 448 (.ein [(53, [0, 1, 2]), (260, [0, 3, 4])] [2, 3, 1, 4]) 1 1,
    -- 2898: del x333
    .del 260,
    -- 2899: x342 += einsum("ijab->ijab", x334)
    .add 90 (.ein [(448, [0, 1, 2, 3])] [0, 1, 2, 3]) 1 1,
    -- 2900: del x334
    .del 448,
    -- 2901: x502 += einsum("wia->wia", x197)
    .add 261 (.ein [(447, [0, 1, 2])] [0, 1, 2]) 1 1,
    -- 2902: del x197
    .del 447,
    -- 2903: x199 += einsum("wia->wia", gc.aa.bov)
    .add 123 (.ein [(70, [0, 1, 2])] [0, 1, 2]) 1 1,
    -- 2904: x200 += einsum("ia,wja->wji", t1.aa, x199)
    .add 195 (.ein [(12, [0, 1]), (123, [2, 3, 1])] [2, 3, 0]) 1 1,
    -- 2905: del x199
    .del 123,
    -- 2906: x200 += einsum("wij->wij", gc.aa.boo)
    .add 195 (.ein [(69, [0, 1, 2])] [0, 1, 2]) 1 1,
    -- 2907: x200 += einsum("wx,wij->xij", s2, g.aa.boo)
    .add 195 (.ein [(51, [0, 1]), (0, [0, 2, 3])] [1, 2, 3]) 1 1,
    -- 2908: x200 += einsum("wia,jkia->wjk", u11.bb, v.aabb.ooov)
    .add 195 (.ein [(46, [0, 1, 2]), (14, [3, 4, 1, 2])] [0, 3, 4]) 1 1,
    -- 2909: l1new_aa += einsum("wai,wji->aj", lu11.aa, x200) * -1
    .add 78 (.ein [(53, [0, 1, 2]), (195, [0, 3, 2])] [1, 3]) (-1) 1,
    -- 2910: del x200
    .del 195,
    -- 2911: x201 = np.zeros((nocc[0], nvir[0], nvir[0], nvir[0]), dtype=types[float])
    .zeros 449 [0, 1, 1, 1],
    -- 2912: x201 += einsum("iabc->ibca", v.aaaa.ovvv)
    .add 449 (.ein [(23, [0, 1, 2, 3])] [0, 2, 3, 1]) 1 1,
    -- 2913: x201 -= einsum("iabc->ibac", v.aaaa.ovvv)
    .add 449 (.ein [(23, [0, 1, 2, 3])] [0, 2, 1, 3]) (-1) 1,
    -- 2914: x202 = np.zeros((nbos, nvir[0], nvir[0]), dtype=types[float])
    .zeros 450 [2, 1, 1],
    -- 2915: x202 -= einsum("wia,ibac->wbc", u11.aa, x201)
    .add 450 (.ein [(25, [0, 1, 2]), (449, [1, 3, 2, 4])] [0, 3, 4]) (-1) 1,
    -- 2916: x306 = np.zeros((nocc[0], nocc[0], nvir[0], nvir[0]), dtype=types[float])
    .zeros 451 [0, 0, 1, 1],
    -- 2917: x306 += einsum("ia,jbac->ijbc", t1.aa, x201)
    .add 451 (.ein [(12, [0, 1]), (449, [2, 3, 1, 4])] [0, 2, 3, 4]) 1 1,
    -- 2918: x307 = np.zeros((nocc[0], nocc[0], nvir[0], nvir[0]), dtype=types[float])
    .zeros 452 [0, 0, 1, 1],
    -- 2919: x307 -= einsum("ijab->ijab", x306)
    .add 452 (.ein [(451, [0, 1, 2, 3])] [0, 1, 2, 3]) (-1) 1,
    -- 2920: del x306
    .del 451,
    -- 2921: x319 = np.zeros((nvir[0], nvir[0]), dtype=types[float])
    .zeros 453 [1, 1],
    -- 2922: x319 += einsum("ia,ibac->bc", t1.aa, x201)
    .add 453 (.ein [(12, [0, 1]), (449, [0, 2, 1, 3])] [2, 3]) 1 1,
    -- 2923: del x201
    .del 449,
    -- 2924: x320 -= einsum("ab->ab", x319)
    .add 328 (.ein [(453, [0, 1])] [0, 1]) (-1) 1,
    -- 2925: del x319
    .del 453,
    -- 2926: x321 = np.zeros((nocc[0], nocc[0], nvir[0], nvir[0]), dtype=types[float])
    .zeros 454 [0, 0, 1, 1],
    -- 2927: x321 += einsum("ab,acij->ijcb", x320, l2.aaaa)
    .add 454 (.ein [(328, [0, 1]), (26, [0, 2, 3, 4])] [3, 4, 2, 1]) 1 1,
    -- 2928: del x320
    .del 328,
    -- 2929: x342 += einsum("ijab->jiab", x321)
    .add 90 (.ein [(454, [0, 1, 2, 3])] [1, 0, 2, 3]) 1 1,
    -- 2930: del x321
    .del 454,
    -- 2931: x202 += einsum("wab->wab", gc.aa.bvv)
    .add 450 (.ein [(72, [0, 1, 2])] [0, 1, 2]) 1 1,
    -- 2932: x202 += einsum("wx,wab->xab", s2, g.aa.bvv)
    .add 450 (.ein [(51, [0, 1]), (3, [0, 2, 3])] [1, 2, 3]) 1 1,
    -- 2933: x202 += einsum("wia,iabc->wbc", u11.bb, v.bbaa.ovvv)
    .add 450 (.ein [(46, [0, 1, 2]), (15, [1, 2, 3, 4])] [0, 3, 4]) 1 1,
    -- 2934: l1new_aa += einsum("wai,wab->bi", lu11.aa, x202)
    .add 78 (.ein [(53, [0, 1, 2]), (450, [0, 1, 3])] [3, 2]) 1 1,
    -- 2935: del x202
    .del 450,
    -- 2936: x203 = np.zeros((nbos, nocc[0], nvir[0]), dtype=types[float])
    .zeros 455 [2, 0, 1],
    -- 2937: x203 += einsum("wia,baji->wjb", u11.bb, l2.abab)
    .add 455 (.ein [(46, [0, 1, 2]), (8, [3, 2, 4, 1])] [0, 4, 3]) 1 1,
    -- 2938: x205 += einsum("wia->wia", x203)
    .add 342 (.ein [(455, [0, 1, 2])] [0, 1, 2]) 1 1,
    -- 2939: x507 = np.zeros((nocc[0], nocc[1], nvir[0], nvir[1]), dtype=types[float])
    .zeros 456 [0, 4, 1, 5],
    -- 2940: x507 += einsum("wia,wjb->jiba", g.bb.bov, x205)
    .add 456 (.ein [(6, [0, 1, 2]), (342, [0, 3, 4])] [3, 1, 4, 2]) 1 1,
    -- 2941: l2new_baba += einsum("ijab->baji", x507)
    .add 92 (.ein [(456, [0, 1, 2, 3])] [3, 2, 1, 0]) 1 1,
    -- 2942: l2new_abab += einsum("ijab->abij", x507)
    .add 93 (.ein [(456, [0, 1, 2, 3])] [2, 3, 0, 1]) 1 1,
    -- 2943: del x507
    .del 456,
    -- 2944: l1new_aa += einsum("wab,wia->bi", g.aa.bvv, x205)
    .add 78 (.ein [(3, [0, 1, 2]), (342, [0, 3, 1])] [2, 3]) 1 1,
    -- 2945: l1new_aa += einsum("wia,wji->aj", x205, x98) * -1
    .add 78 (.ein [(342, [0, 1, 2]), (310, [0, 3, 1])] [2, 3]) (-1) 1,
    -- 2946: del x98
    .del 310,
    -- 2947: del x205
    .del 342,
    -- 2948: x208 = np.zeros((nbos, nocc[0], nvir[0]), dtype=types[float])
    .zeros 457 [2, 0, 1],
    -- 2949: x208 += einsum("wia->wia", x203)
    .add 457 (.ein [(455, [0, 1, 2])] [0, 1, 2]) 1 1,
    -- 2950: x330 += einsum("wia->wia", x203)
    .add 343 (.ein [(455, [0, 1, 2])] [0, 1, 2]) 1 1,
    -- 2951: del x203
    .del 455,
    -- 2952: x206 = np.zeros((nbos, nocc[0], nvir[0]), dtype=types[float])
    .zeros 458 [2, 0, 1],
    -- 2953: x206 += einsum("wx,xai->wia", s2, lu11.aa)
    .add 458 (.ein [(51, [0, 1]), (53, [1, 2, 3])] [0, 3, 2]) 1 1,
    -- 2954: x208 += einsum("wia->wia", x206)
    .add 457 (.ein [(458, [0, 1, 2])] [0, 1, 2]) 1 1,
    -- 2955: x330 += einsum("wia->wia", x206)
    .add 343 (.ein [(458, [0, 1, 2])] [0, 1, 2]) 1 1,
    -- 2956: del x206
    .del 458,
    -- 2957: x331 = np.zeros((nocc[0], nocc[0], nvir[0], nvir[0]), dtype=types[float])
    .zeros 459 [0, 0, 1, 1],
    -- 2958: x331 += einsum("wia,wjb->ijab", g.aa.bov, x330)
    .add 459 (.ein [(2, [0, 1, 2]), (343, [0, 3, 4])] [1, 3, 2, 4]) 1 1,
    -- 2959: del x330
    .del 343,
    -- 2960: x342 += einsum("ijab->ijab", x331)
    .add 90 (.ein [(459, [0, 1, 2, 3])] [0, 1, 2, 3]) 1 1,
    -- 2961: del x331
    .del 459,
    -- 2962: x207 = np.zeros((nocc[0], nocc[0], nvir[0], nvir[0]), dtype=types[float])
    .zeros 460 [0, 0, 1, 1],
    -- 2963: x207 += einsum("abij->jiab", l2.aaaa) * -1
    .add 460 (.ein [(26, [0, 1, 2, 3])] [3, 2, 0, 1]) (-1) 1,
    -- 2964: x207 += einsum("abij->jiba", l2.aaaa)
    .add 460 (.ein [(26, [0, 1, 2, 3])] [3, 2, 1, 0]) 1 1,
    -- 2965: x208 += einsum("wia,ijba->wjb", u11.aa, x207) * -1
    .add 457 (.ein [(25, [0, 1, 2]), (460, [1, 3, 4, 2])] [0, 3, 4]) (-1) 1,
    -- 2966: x210 += einsum("ia,wja->wji", t1.aa, x208)
    .add 402 (.ein [(12, [0, 1]), (457, [2, 3, 1])] [2, 3, 0]) 1 1,
    -- 2967: del x208
    .del 457,
    -- 2968: x210 += einsum("ai,wja->wij", l1.aa, u11.aa)
    .add 402 (.ein [(18, [0, 1]), (25, [2, 3, 0])] [2, 1, 3]) 1 1,
    -- 2969: l1new_aa += einsum("wia,wji->aj", g.aa.bov, x210) * -1
    .add 78 (.ein [(2, [0, 1, 2]), (402, [0, 3, 1])] [2, 3]) (-1) 1,
    -- 2970: del x210
    .del 402,
    -- 2971: x211 += einsum("wia->wia", gc.aa.bov)
    .add 124 (.ein [(70, [0, 1, 2])] [0, 1, 2]) 1 1,
    -- 2972: l1new_aa += einsum("wij,wja->ai", x161, x211) * -1
    .add 78 (.ein [(397, [0, 1, 2]), (124, [0, 2, 3])] [3, 1]) (-1) 1,
    -- 2973: del x161
    .del 397,
    -- 2974: del x211
    .del 124,
    -- 2975: x212 = np.zeros((nocc[0], nocc[0], nvir[0], nvir[0]), dtype=types[float])
    .zeros 461 [0, 0, 1, 1],
    -- 2976: x212 += einsum("iabj->ijba", v.aaaa.ovvo)
    .add 461 (.ein [(28, [0, 1, 2, 3])] [0, 3, 2, 1]) 1 1,
    -- 2977: x212 -= einsum("ijab->ijab", v.aaaa.oovv)
    .add 461 (.ein [(29, [0, 1, 2, 3])] [0, 1, 2, 3]) (-1) 1,
    -- 2978: l1new_aa += einsum("ai,jiab->bj", l1.aa, x212)
    .add 78 (.ein [(18, [0, 1]), (461, [2, 1, 0, 3])] [3, 2]) 1 1,
    -- 2979: lu11new_aa += einsum("wai,jiab->wbj", lu11.aa, x212)
    .add 198 (.ein [(53, [0, 1, 2]), (461, [3, 2, 1, 4])] [0, 4, 3]) 1 1,
    -- 2980: del x212
    .del 461,
    -- 2981: x213 = np.zeros((nbos), dtype=types[float])
    .zeros 462 [2],
    -- 2982: x213 += einsum("w,wx->x", s1, w)
    .add 462 (.ein [(19, [0]), (61, [0, 1])] [1]) 1 1,
    -- 2983: x219 += einsum("w->w", x213)
    .add 197 (.ein [(462, [0])] [0]) 1 1,
    -- 2984: x516 = np.zeros((nbos), dtype=types[float])
    .zeros 463 [2],
    -- 2985: x516 += einsum("w->w", x213)
    .add 463 (.ein [(462, [0])] [0]) 1 1,
    -- 2986: del x213
    .del 462,
    -- 2987: x214 = np.zeros((nbos), dtype=types[float])
    .zeros 464 [2],
    -- 2988: x214 += einsum("ia,wia->w", t1.aa, gc.aa.bov)
    .add 464 (.ein [(12, [0, 1]), (70, [2, 0, 1])] [2]) 1 1,
    -- 2989: x219 += einsum("w->w", x214)
    .add 197 (.ein [(464, [0])] [0]) 1 1,
    -- 2990: x516 += einsum("w->w", x214)
    .add 463 (.ein [(464, [0])] [0]) 1 1,
    -- 2991: del x214
    .del 464,
    -- 2992: x215 = np.zeros((nbos), dtype=types[float])
    .zeros 465 [2],
    -- 2993: x215 += einsum("ia,wia->w", t1.bb, gc.bb.bov)
    .add 465 (.ein [(11, [0, 1]), (74, [2, 0, 1])] [2]) 1 1,
    -- 2994: x219 += einsum("w->w", x215)
    .add 197 (.ein [(465, [0])] [0]) 1 1,
    -- 2995: x516 += einsum("w->w", x215)
    .add 463 (.ein [(465, [0])] [0]) 1 1,
    -- 2996: del x215
    .del 465,
    -- 2997: x219 += einsum("w->w", G)
    .add 197 (.ein [(50, [0])] [0]) 1 1,
    -- 2998: l1new_aa += einsum("w,wai->ai", x219, lu11.aa)
    .add 78 (.ein [(197, [0]), (53, [0, 1, 2])] [1, 2]) 1 1,
    -- 2999: l1new_bb += einsum("w,wai->ai", x219, lu11.bb)
    .add 83 (.ein [(197, [0]), (60, [0, 1, 2])] [1, 2]) 1 1,
    -- 3000: del x219
    .del 197,
    -- 3001: x221 += einsum("ia->ia", f.aa.ov)
    .add 115 (.ein [(20, [0, 1])] [0, 1]) 1 1,
    -- 3002: l1new_aa += einsum("ij,ja->ai", x220, x221) * -1
    .add 78 (.ein [(99, [0, 1]), (115, [1, 2])] [2, 0]) (-1) 1,
    -- 3003: del x220
    .del 99,
    -- 3004: del x221
    .del 115,
    -- 3005: x222 = np.zeros((nbos), dtype=types[float])
    .zeros 466 [2],
    -- 3006: x222 += einsum("w,xw->x", ls1, s2)
    .add 466 (.ein [(34, [0]), (51, [1, 0])] [1]) 1 1,
    -- 3007: x225 = np.zeros((nbos), dtype=types[float])
    .zeros 467 [2],
    -- 3008: x225 += einsum("w->w", x222)
    .add 467 (.ein [(466, [0])] [0]) 1 1,
    -- 3009: del x222
    .del 466,
    -- 3010: x223 = np.zeros((nbos), dtype=types[float])
    .zeros 468 [2],
    -- 3011: x223 += einsum("ai,wia->w", l1.aa, u11.aa)
    .add 468 (.ein [(18, [0, 1]), (25, [2, 1, 0])] [2]) 1 1,
    -- 3012: x225 += einsum("w->w", x223)
    .add 467 (.ein [(468, [0])] [0]) 1 1,
    -- 3013: del x223
    .del 468,
    -- 3014: x224 = np.zeros((nbos), dtype=types[float])
    .zeros 469 [2],
    -- 3015: x224 += einsum("ai,wia->w", l1.bb, u11.bb)
    .add 469 (.ein [(39, [0, 1]), (46, [2, 1, 0])] [2]) 1 1,
    -- 3016: x225 += einsum("w->w", x224)
    .add 467 (.ein [(469, [0])] [0]) 1 1,
    -- 3017: del x224
    .del 469,
    -- 3018: x225 += einsum("w->w", s1)
    .add 467 (.ein [(19, [0])] [0]) 1 1,
    -- 3019: l1new_aa += einsum("w,wia->ai", x225, g.aa.bov)
    .add 78 (.ein [(467, [0]), (2, [0, 1, 2])] [2, 1]) 1 1,
    -- 3020: l1new_bb += einsum("w,wia->ai", x225, g.bb.bov)
    .add 83 (.ein [(467, [0]), (6, [0, 1, 2])] [2, 1]) 1 1,
    -- 3021: del x225
    .del 467,
    -- 3022: x226 = np.zeros((nocc[1], nocc[1], nvir[0], nvir[0]), dtype=types[float])
    .zeros 470 [4, 4, 1, 1],
    -- 3023: x226 += einsum("abij,ikcb->jkac", l2.abab, t2.abab)
    .add 470 (.ein [(8, [0, 1, 2, 3]), (9, [2, 4, 5, 1])] [3, 4, 0, 5]) 1 1,
    -- 3024: l1new_bb += einsum("iabc,jibc->aj", v.bbaa.ovvv, x226) * -1
    .add 83 (.ein [(15, [0, 1, 2, 3]), (470, [4, 0, 2, 3])] [1, 4]) (-1) 1,
    -- 3025: del x226
    .del 470,
    -- 3026: x227 += einsum("ia->ia", f.bb.ov)
    .add 281 (.ein [(47, [0, 1])] [0, 1]) 1 1,
    -- 3027: x228 = np.zeros((nocc[1], nocc[1], nocc[1], nvir[1]), dtype=types[float])
    .zeros 471 [4, 4, 4, 5],
    -- 3028: x228 += einsum("ia,jkab->jkib", x227, t2.bbbb)
    .add 471 (.ein [(281, [0, 1]), (31, [2, 3, 1, 4])] [2, 3, 0, 4]) 1 1,
    -- 3029: del x227
    .del 281,
    -- 3030: x229 = np.zeros((nocc[1], nocc[1], nocc[1], nvir[1]), dtype=types[float])
    .zeros 472 [4, 4, 4, 5],
    -- 3031: x229 += einsum("ijka->kjia", x228)
    .add 472 (.ein [(471, [0, 1, 2, 3])] [2, 1, 0, 3]) 1 1,
    -- 3032: del x228
    .del 471,
    -- 3033: x229 += einsum("ijak->ijka", v.bbbb.oovo) * -1
    .add 472 (.ein [(62, [0, 1, 2, 3])] [0, 1, 3, 2]) (-1) 1,
    -- 3034: x246 += einsum("ijka->jika", x229) * -1
    .add 188 (.ein [(472, [0, 1, 2, 3])] [1, 0, 2, 3]) (-1) 1,
    -- 3035: x246 += einsum("ijka->kija", x229)
    .add 188 (.ein [(472, [0, 1, 2, 3])] [2, 0, 1, 3]) 1 1,
    -- 3036: del x229
    .del 472,
    -- 3037: x230 = np.zeros((nocc[1], nocc[1], nocc[1], nvir[1]), dtype=types[float])
    .zeros 473 [4, 4, 4, 5],
    -- 3038: x230 += einsum("ijab,kacb->ijkc", t2.bbbb, v.bbbb.ovvv)
    .add 473 (.ein [(31, [0, 1, 2, 3]), (32, [4, 2, 5, 3])] [0, 1, 4, 5]) 1 1,
    -- 3039: x239 += einsum("ijka->ijka", x230) * -1
    .add 291 (.ein [(473, [0, 1, 2, 3])] [0, 1, 2, 3]) (-1) 1,
    -- 3040: del x230
    .del 473,
    -- 3041: x231 = np.zeros((nocc[1], nocc[1], nvir[1], nvir[1]), dtype=types[float])
    .zeros 474 [4, 4, 5, 5],
    -- 3042: x231 += einsum("ia,jabc->ijbc", t1.bb, v.bbbb.ovvv)
    .add 474 (.ein [(11, [0, 1]), (32, [2, 1, 3, 4])] [0, 2, 3, 4]) 1 1,
    -- 3043: x232 = np.zeros((nocc[1], nocc[1], nocc[1], nvir[1]), dtype=types[float])
    .zeros 475 [4, 4, 4, 5],
    -- 3044: x232 += einsum("ia,jkba->jikb", t1.bb, x231)
    .add 475 (.ein [(11, [0, 1]), (474, [2, 3, 4, 1])] [2, 0, 3, 4]) 1 1,
    -- 3045: del x231
    .del 474,
    -- 3046: x239 += einsum("ijka->ijka", x232) * -1
    .add 291 (.ein [(475, [0, 1, 2, 3])] [0, 1, 2, 3]) (-1) 1,
    -- 3047: del x232
    .del 475,
    -- 3048: x235 = np.zeros((nocc[1], nocc[1], nocc[1], nocc[1]), dtype=types[float])
    .zeros 476 [4, 4, 4, 4],
    -- 3049: x235 += einsum("ijab,kbla->ijlk", t2.bbbb, v.bbbb.ovov)
    .add 476 (.ein [(31, [0, 1, 2, 3]), (45, [4, 3, 5, 2])] [0, 1, 5, 4]) 1 1,
    -- 3050: x237 += einsum("ijkl->jilk", x235)
    .add 352 (.ein [(476, [0, 1, 2, 3])] [1, 0, 3, 2]) 1 1,
    -- 3051: x238 = np.zeros((nocc[1], nocc[1], nocc[1], nvir[1]), dtype=types[float])
    .zeros 477 [4, 4, 4, 5],
    -- 3052: x238 += einsum("ia,jkil->jkla", t1.bb, x237)
    .add 477 (.ein [(11, [0, 1]), (352, [2, 3, 0, 4])] [2, 3, 4, 1]) 1 1,
    -- 3053: del x237
    .del 352,
    -- 3054: x239 += einsum("ijka->jika", x238)
    .add 291 (.ein [(477, [0, 1, 2, 3])] [1, 0, 2, 3]) 1 1,
    -- 3055: del x238
    .del 477,
    -- 3056: x246 += einsum("ijka->ikja", x239) * -1
    .add 188 (.ein [(291, [0, 1, 2, 3])] [0, 2, 1, 3]) (-1) 1,
    -- 3057: x246 += einsum("ijka->jkia", x239)
    .add 188 (.ein [(291, [0, 1, 2, 3])] [1, 2, 0, 3]) 1 1,
    -- 3058: del x239
    .del 291,
    -- 3059: x418 += einsum("ijkl->jilk", x235)
    .add 353 (.ein [(476, [0, 1, 2, 3])] [1, 0, 3, 2]) 1 1,
    -- 3060: del x235
    .del 476,
    -- 3061: x419 = np.zeros((nocc[1], nocc[1], nvir[1], nvir[1]), dtype=types[float])
    .zeros 478 [4, 4, 5, 5],
    -- 3062: x419 += einsum("abij,ijkl->klab", l2.bbbb, x418)
    .add 478 (.ein [(33, [0, 1, 2, 3]), (353, [2, 3, 4, 5])] [4, 5, 0, 1]) 1 1,
    -- 3063: del x418
    .del 353,
    -- 3064: x420 += einsum("ijab->ijab", x419)
    .add 424 (.ein [(478, [0, 1, 2, 3])] [0, 1, 2, 3]) 1 1,
    -- 3065: del x419
    .del 478,
    -- 3066: x240 += einsum("ijka->jika", v.bbbb.ooov)
    .add 354 (.ein [(54, [0, 1, 2, 3])] [1, 0, 2, 3]) 1 1,
    -- 3067: x240 += einsum("ijka->jkia", v.bbbb.ooov) * -1
    .add 354 (.ein [(54, [0, 1, 2, 3])] [1, 2, 0, 3]) (-1) 1,
    -- 3068: x241 = np.zeros((nocc[1], nocc[1], nocc[1], nvir[1]), dtype=types[float])
    .zeros 479 [4, 4, 4, 5],
    -- 3069: x241 += einsum("ijka,jlba->likb", x240, x35)
    .add 479 (.ein [(354, [0, 1, 2, 3]), (169, [1, 4, 5, 3])] [4, 0, 2, 5]) 1 1,
    -- 3070: del x240
    .del 354,
    -- 3071: del x35
    .del 169,
    -- 3072: x246 += einsum("ijka->jkia", x241)
    .add 188 (.ein [(479, [0, 1, 2, 3])] [1, 2, 0, 3]) 1 1,
    -- 3073: x257 += einsum("ijka->jkia", x241)
    .add 189 (.ein [(479, [0, 1, 2, 3])] [1, 2, 0, 3]) 1 1,
    -- 3074: del x241
    .del 479,
    -- 3075: x244 = np.zeros((nocc[1], nocc[1], nocc[1], nocc[1]), dtype=types[float])
    .zeros 480 [4, 4, 4, 4],
    -- 3076: x244 += einsum("ia,jkla->ijlk", t1.bb, v.bbbb.ooov)
    .add 480 (.ein [(11, [0, 1]), (54, [2, 3, 4, 1])] [0, 2, 4, 3]) 1 1,
    -- 3077: x245 = np.zeros((nocc[1], nocc[1], nocc[1], nocc[1]), dtype=types[float])
    .zeros 481 [4, 4, 4, 4],
    -- 3078: x245 += einsum("ijkl->jkli", x244)
    .add 481 (.ein [(480, [0, 1, 2, 3])] [1, 2, 3, 0]) 1 1,
    -- 3079: x245 += einsum("ijkl->kjli", x244) * -1
    .add 481 (.ein [(480, [0, 1, 2, 3])] [2, 1, 3, 0]) (-1) 1,
    -- 3080: x256 = np.zeros((nocc[1], nocc[1], nocc[1], nocc[1]), dtype=types[float])
    .zeros 482 [4, 4, 4, 4],
    -- 3081: x256 += einsum("ijkl->ijkl", x244) * -1
    .add 482 (.ein [(480, [0, 1, 2, 3])] [0, 1, 2, 3]) (-1) 1,
    -- 3082: x256 += einsum("ijkl->ikjl", x244)
    .add 482 (.ein [(480, [0, 1, 2, 3])] [0, 2, 1, 3]) 1 1,
    -- 3083: x257 += einsum("ia,jkil->jkla", t1.bb, x256) * -1
    .add 189 (.ein [(11, [0, 1]), (482, [2, 3, 0, 4])] [2, 3, 4, 1]) (-1) 1,
    -- 3084: del x256
    .del 482,
    -- 3085: l1new_bb += einsum("abij,jkib->ak", l2.bbbb, x257)
    .add 83 (.ein [(33, [0, 1, 2, 3]), (189, [3, 4, 2, 1])] [0, 4]) 1 1,
    -- 3086: del x257
    .del 189,
    -- 3087: x375 = np.zeros((nocc[1], nocc[1], nvir[1], nvir[1]), dtype=types[float])
    .zeros 483 [4, 4, 5, 5],
    -- 3088: x375 += einsum("abij,jkli->klba", l2.bbbb, x244)
    .add 483 (.ein [(33, [0, 1, 2, 3]), (480, [3, 4, 5, 2])] [4, 5, 1, 0]) 1 1,
    -- 3089: del x244
    .del 480,
    -- 3090: x415 -= einsum("ijab->ijab", x375)
    .add 235 (.ein [(483, [0, 1, 2, 3])] [0, 1, 2, 3]) (-1) 1,
    -- 3091: del x375
    .del 483,
    -- 3092: x245 += einsum("ijkl->kijl", v.bbbb.oooo) * -1
    .add 481 (.ein [(63, [0, 1, 2, 3])] [2, 0, 1, 3]) (-1) 1,
    -- 3093: x245 += einsum("ijkl->kilj", v.bbbb.oooo)
    .add 481 (.ein [(63, [0, 1, 2, 3])] [2, 0, 3, 1]) 1 1,
    -- 3094: x246 += einsum("ia,ijkl->ljka", t1.bb, x245) * -1
    .add 188 (.ein [(11, [0, 1]), (481, [0, 2, 3, 4])] [4, 2, 3, 1]) (-1) 1,
    -- 3095: del x245
    .del 481,
    -- 3096: l1new_bb += einsum("abij,jkia->bk", l2.bbbb, x246) * -1
    .add 83 (.ein [(33, [0, 1, 2, 3]), (188, [3, 4, 2, 0])] [1, 4]) (-1) 1,
    -- 3097: del x246
    .del 188,
    -- 3098: x247 += einsum("ijka->ikja", v.bbbb.ooov)
    .add 355 (.ein [(54, [0, 1, 2, 3])] [0, 2, 1, 3]) 1 1,
    -- 3099: x247 += einsum("ijka->kija", v.bbbb.ooov) * -1
    .add 355 (.ein [(54, [0, 1, 2, 3])] [2, 0, 1, 3]) (-1) 1,
    -- 3100: x250 += einsum("ijab,jklb->ikla", t2.abab, x247) * -1
    .add 159 (.ein [(9, [0, 1, 2, 3]), (355, [1, 4, 5, 3])] [0, 4, 5, 2]) (-1) 1,
    -- 3101: del x247
    .del 355,
    -- 3102: x248 = np.zeros((nocc[1], nocc[1], nvir[0], nvir[0]), dtype=types[float])
    .zeros 484 [4, 4, 1, 1],
    -- 3103: x248 += einsum("ia,jabc->ijbc", t1.bb, v.bbaa.ovvv)
    .add 484 (.ein [(11, [0, 1]), (15, [2, 1, 3, 4])] [0, 2, 3, 4]) 1 1,
    -- 3104: x249 = np.zeros((nocc[1], nocc[1], nvir[0], nvir[0]), dtype=types[float])
    .zeros 485 [4, 4, 1, 1],
    -- 3105: x249 += einsum("ijab->jiab", x248)
    .add 485 (.ein [(484, [0, 1, 2, 3])] [1, 0, 2, 3]) 1 1,
    -- 3106: x471 = np.zeros((nocc[1], nocc[1], nvir[0], nvir[0]), dtype=types[float])
    .zeros 486 [4, 4, 1, 1],
    -- 3107: x471 += einsum("ijab->jiab", x248)
    .add 486 (.ein [(484, [0, 1, 2, 3])] [1, 0, 2, 3]) 1 1,
    -- 3108: del x248
    .del 484,
    -- 3109: x249 += einsum("ijab->ijab", v.bbaa.oovv)
    .add 485 (.ein [(16, [0, 1, 2, 3])] [0, 1, 2, 3]) 1 1,
    -- 3110: x250 += einsum("ia,jkba->ijkb", t1.aa, x249)
    .add 159 (.ein [(12, [0, 1]), (485, [2, 3, 4, 1])] [0, 2, 3, 4]) 1 1,
    -- 3111: del x249
    .del 485,
    -- 3112: x250 += einsum("ijak->kija", v.bbaa.oovo)
    .add 159 (.ein [(64, [0, 1, 2, 3])] [3, 0, 1, 2]) 1 1,
    -- 3113: x250 += einsum("ia,jabk->kjib", t1.bb, v.bbaa.ovvo)
    .add 159 (.ein [(11, [0, 1]), (44, [2, 1, 3, 4])] [4, 2, 0, 3]) 1 1,
    -- 3114: x250 += einsum("ijab,kbca->ikjc", t2.abab, v.bbaa.ovvv)
    .add 159 (.ein [(9, [0, 1, 2, 3]), (15, [4, 3, 5, 2])] [0, 4, 1, 5]) 1 1,
    -- 3115: l1new_bb += einsum("abij,ikja->bk", l2.abab, x250) * -1
    .add 83 (.ein [(8, [0, 1, 2, 3]), (159, [2, 4, 3, 0])] [1, 4]) (-1) 1,
    -- 3116: del x250
    .del 159,
    -- 3117: x251 = np.zeros((nocc[1], nocc[1], nvir[1], nvir[1]), dtype=types[float])
    .zeros 487 [4, 4, 5, 5],
    -- 3118: x251 += einsum("abij,ikac->jkbc", l2.abab, t2.abab)
    .add 487 (.ein [(8, [0, 1, 2, 3]), (9, [2, 4, 0, 5])] [3, 4, 1, 5]) 1 1,
    -- 3119: x254 = np.zeros((nocc[1], nocc[1], nvir[1], nvir[1]), dtype=types[float])
    .zeros 488 [4, 4, 5, 5],
    -- 3120: x254 += einsum("ijab->ijab", x251)
    .add 488 (.ein [(487, [0, 1, 2, 3])] [0, 1, 2, 3]) 1 1,
    -- 3121: del x251
    .del 487,
    -- 3122: x252 = np.zeros((nocc[1], nocc[1], nvir[1], nvir[1]), dtype=types[float])
    .zeros 489 [4, 4, 5, 5],
    -- 3123: x252 += einsum("abij->jiab", l2.bbbb) * -1
    .add 489 (.ein [(33, [0, 1, 2, 3])] [3, 2, 0, 1]) (-1) 1,
    -- 3124: x252 += einsum("abij->jiba", l2.bbbb)
    .add 489 (.ein [(33, [0, 1, 2, 3])] [3, 2, 1, 0]) 1 1,
    -- 3125: x253 = np.zeros((nocc[1], nocc[1], nvir[1], nvir[1]), dtype=types[float])
    .zeros 490 [4, 4, 5, 5],
    -- 3126: x253 += einsum("ijab,ikbc->kjca", x252, x54)
    .add 490 (.ein [(489, [0, 1, 2, 3]), (229, [0, 4, 3, 5])] [4, 1, 5, 2]) 1 1,
    -- 3127: del x54
    .del 229,
    -- 3128: x254 += einsum("ijab->jiba", x253)
    .add 488 (.ein [(490, [0, 1, 2, 3])] [1, 0, 3, 2]) 1 1,
    -- 3129: del x253
    .del 490,
    -- 3130: x421 = np.zeros((nocc[1], nocc[1], nvir[1], nvir[1]), dtype=types[float])
    .zeros 491 [4, 4, 5, 5],
    -- 3131: x421 += einsum("ijab,jkbc->kica", x254, x92)
    .add 491 (.ein [(488, [0, 1, 2, 3]), (288, [1, 4, 3, 5])] [4, 0, 5, 2]) 1 1,
    -- 3132: del x92
    .del 288,
    -- 3133: x439 += einsum("ijab->jiba", x421) * -1
    .add 376 (.ein [(491, [0, 1, 2, 3])] [1, 0, 3, 2]) (-1) 1,
    -- 3134: del x421
    .del 491,
    -- 3135: x292 = np.zeros((nbos, nocc[1], nvir[1]), dtype=types[float])
    .zeros 492 [2, 4, 5],
    -- 3136: x292 += einsum("wia,ijba->wjb", u11.bb, x252) * -1
    .add 492 (.ein [(46, [0, 1, 2]), (489, [1, 3, 4, 2])] [0, 3, 4]) (-1) 1,
    -- 3137: x425 = np.zeros((nocc[0], nocc[1], nvir[0], nvir[1]), dtype=types[float])
    .zeros 493 [0, 4, 1, 5],
    -- 3138: x425 += einsum("ijab,jkcb->ikac", t2.abab, x252)
    .add 493 (.ein [(9, [0, 1, 2, 3]), (489, [1, 4, 5, 3])] [0, 4, 2, 5]) 1 1,
    -- 3139: x426 = np.zeros((nocc[1], nocc[1], nvir[1], nvir[1]), dtype=types[float])
    .zeros 494 [4, 4, 5, 5],
    -- 3140: x426 += einsum("iajb,ikac->jkbc", v.aabb.ovov, x425) * -1
    .add 494 (.ein [(17, [0, 1, 2, 3]), (493, [0, 4, 1, 5])] [2, 4, 3, 5]) (-1) 1,
    -- 3141: del x425
    .del 493,
    -- 3142: x439 += einsum("ijab->jiba", x426) * -1
    .add 376 (.ein [(494, [0, 1, 2, 3])] [1, 0, 3, 2]) (-1) 1,
    -- 3143: del x426
    .del 494,
    -- 3144: x255 = np.zeros((nocc[1], nvir[1], nvir[1], nvir[1]), dtype=types[float])
    .zeros 495 [4, 5, 5, 5],
    -- 3145: x255 += einsum("iabc->ibca", v.bbbb.ovvv) * -1
    .add 495 (.ein [(32, [0, 1, 2, 3])] [0, 2, 3, 1]) (-1) 1,
    -- 3146: x255 += einsum("iabc->ibac", v.bbbb.ovvv)
    .add 495 (.ein [(32, [0, 1, 2, 3])] [0, 2, 1, 3]) 1 1,
    -- 3147: x463 = np.zeros((nocc[1], nocc[1], nvir[1], nvir[1]), dtype=types[float])
    .zeros 496 [4, 4, 5, 5],
    -- 3148: x463 += einsum("ia,jbac->ijbc", t1.bb, x255)
    .add 496 (.ein [(11, [0, 1]), (495, [2, 3, 1, 4])] [0, 2, 3, 4]) 1 1,
    -- 3149: x464 += einsum("ijab->jiab", x463) * -1
    .add 382 (.ein [(496, [0, 1, 2, 3])] [1, 0, 2, 3]) (-1) 1,
    -- 3150: del x463
    .del 496,
    -- 3151: l1new_bb += einsum("ijab,jacb->ci", x254, x255) * -1
    .add 83 (.ein [(488, [0, 1, 2, 3]), (495, [1, 2, 4, 3])] [4, 0]) (-1) 1,
    -- 3152: del x254
    .del 488,
    -- 3153: l1new_bb += einsum("iabc,jiac->bj", x255, x263)
    .add 83 (.ein [(495, [0, 1, 2, 3]), (418, [4, 0, 1, 3])] [2, 4]) 1 1,
    -- 3154: del x255
    .del 495,
    -- 3155: del x263
    .del 418,
    -- 3156: x258 = np.zeros((nocc[1], nocc[1], nvir[1], nvir[1]), dtype=types[float])
    .zeros 497 [4, 4, 5, 5],
    -- 3157: x258 += einsum("abij->jiab", l2.bbbb)
    .add 497 (.ein [(33, [0, 1, 2, 3])] [3, 2, 0, 1]) 1 1,
    -- 3158: x258 += einsum("abij->jiba", l2.bbbb) * -1
    .add 497 (.ein [(33, [0, 1, 2, 3])] [3, 2, 1, 0]) (-1) 1,
    -- 3159: x259 += einsum("ijab,jkcb->ikac", t2.abab, x258) * -1
    .add 218 (.ein [(9, [0, 1, 2, 3]), (497, [1, 4, 5, 3])] [0, 4, 2, 5]) (-1) 1,
    -- 3160: del x258
    .del 497,
    -- 3161: l1new_bb += einsum("iabc,ijab->cj", v.aabb.ovvv, x259) * -1
    .add 83 (.ein [(10, [0, 1, 2, 3]), (218, [0, 4, 1, 2])] [3, 4]) (-1) 1,
    -- 3162: del x259
    .del 218,
    -- 3163: x264 = np.zeros((nocc[1], nvir[1], nvir[1], nvir[1]), dtype=types[float])
    .zeros 498 [4, 5, 5, 5],
    -- 3164: x264 += einsum("ia,bacd->icbd", t1.bb, v.bbbb.vvvv)
    .add 498 (.ein [(11, [0, 1]), (65, [2, 1, 3, 4])] [0, 3, 2, 4]) 1 1,
    -- 3165: x265 = np.zeros((nocc[1], nvir[1], nvir[1], nvir[1]), dtype=types[float])
    .zeros 499 [4, 5, 5, 5],
    -- 3166: x265 += einsum("iabc->iabc", x264) * -1
    .add 499 (.ein [(498, [0, 1, 2, 3])] [0, 1, 2, 3]) (-1) 1,
    -- 3167: del x264
    .del 498,
    -- 3168: x265 += einsum("aibc->iabc", v.bbbb.vovv)
    .add 499 (.ein [(66, [0, 1, 2, 3])] [1, 0, 2, 3]) 1 1,
    -- 3169: x266 = np.zeros((nocc[1], nvir[1], nvir[1], nvir[1]), dtype=types[float])
    .zeros 500 [4, 5, 5, 5],
    -- 3170: x266 += einsum("iabc->iabc", x265) * -1
    .add 500 (.ein [(499, [0, 1, 2, 3])] [0, 1, 2, 3]) (-1) 1,
    -- 3171: x266 += einsum("iabc->ibac", x265)
    .add 500 (.ein [(499, [0, 1, 2, 3])] [0, 2, 1, 3]) 1 1,
    -- 3172: del x265
    .del 499,
    -- 3173: l1new_bb += einsum("abij,iabc->cj", l2.bbbb, x266) * -1
    .add 83 (.ein [(33, [0, 1, 2, 3]), (500, [2, 0, 1, 4])] [4, 3]) (-1) 1,
    -- 3174: del x266
    .del 500,
    -- 3175: x267 += einsum("ai,jkba->jikb", l1.bb, t2.abab) * -1
    .add 95 (.ein [(39, [0, 1]), (9, [2, 3, 4, 0])] [2, 1, 3, 4]) (-1) 1,
    -- 3176: l1new_bb += einsum("iajb,ikja->bk", v.aabb.ovov, x267)
    .add 83 (.ein [(17, [0, 1, 2, 3]), (95, [0, 4, 2, 1])] [3, 4]) 1 1,
    -- 3177: del x267
    .del 95,
    -- 3178: x268 = np.zeros((nocc[1], nocc[1], nocc[1], nvir[1]), dtype=types[float])
    .zeros 501 [4, 4, 4, 5],
    -- 3179: x268 += einsum("ai,jkab->ikjb", l1.bb, t2.bbbb)
    .add 501 (.ein [(39, [0, 1]), (31, [2, 3, 0, 4])] [1, 3, 2, 4]) 1 1,
    -- 3180: x271 += einsum("ijka->ijka", x268) * 0.9999999999999993
    .add 421 (.ein [(501, [0, 1, 2, 3])] [0, 1, 2, 3]) 1 1,
    -- 3181: del x268
    .del 501,
    -- 3182: x272 = np.zeros((nocc[1], nocc[1], nocc[1], nvir[1]), dtype=types[float])
    .zeros 502 [4, 4, 4, 5],
    -- 3183: x272 += einsum("ijka->ijka", x271) * -1
    .add 502 (.ein [(421, [0, 1, 2, 3])] [0, 1, 2, 3]) (-1) 1,
    -- 3184: x272 += einsum("ijka->ikja", x271)
    .add 502 (.ein [(421, [0, 1, 2, 3])] [0, 2, 1, 3]) 1 1,
    -- 3185: del x271
    .del 421,
    -- 3186: l1new_bb += einsum("iajb,kija->bk", v.bbbb.ovov, x272)
    .add 83 (.ein [(45, [0, 1, 2, 3]), (502, [4, 0, 2, 1])] [3, 4]) 1 1,
    -- 3187: del x272
    .del 502,
    -- 3188: x273 = np.zeros((nocc[0], nvir[0], nvir[1], nvir[1]), dtype=types[float])
    .zeros 503 [0, 1, 5, 5],
    -- 3189: x273 += einsum("aibc->iabc", v.aabb.vovv)
    .add 503 (.ein [(67, [0, 1, 2, 3])] [1, 0, 2, 3]) 1 1,
    -- 3190: x273 += einsum("ia,bacd->ibcd", t1.aa, v.aabb.vvvv)
    .add 503 (.ein [(12, [0, 1]), (43, [2, 1, 3, 4])] [0, 2, 3, 4]) 1 1,
    -- 3191: l1new_bb += einsum("abij,iabc->cj", l2.abab, x273)
    .add 83 (.ein [(8, [0, 1, 2, 3]), (503, [2, 0, 1, 4])] [4, 3]) 1 1,
    -- 3192: del x273
    .del 503,
    -- 3193: x274 = np.zeros((nocc[1], nocc[1], nocc[1], nocc[1]), dtype=types[float])
    .zeros 504 [4, 4, 4, 4],
    -- 3194: x274 += einsum("abij,klab->ijkl", l2.bbbb, t2.bbbb)
    .add 504 (.ein [(33, [0, 1, 2, 3]), (31, [4, 5, 0, 1])] [2, 3, 4, 5]) 1 1,
    -- 3195: x275 = np.zeros((nocc[1], nocc[1], nocc[1], nocc[1]), dtype=types[float])
    .zeros 505 [4, 4, 4, 4],
    -- 3196: x275 += einsum("ijkl->jikl", x274)
    .add 505 (.ein [(504, [0, 1, 2, 3])] [1, 0, 2, 3]) 1 1,
    -- 3197: x275 += einsum("ijkl->jilk", x274) * -1
    .add 505 (.ein [(504, [0, 1, 2, 3])] [1, 0, 3, 2]) (-1) 1,
    -- 3198: x416 = np.zeros((nocc[1], nocc[1], nvir[1], nvir[1]), dtype=types[float])
    .zeros 506 [4, 4, 5, 5],
    -- 3199: x416 += einsum("iajb,klij->lkba", v.bbbb.ovov, x274)
    .add 506 (.ein [(45, [0, 1, 2, 3]), (504, [4, 5, 0, 2])] [5, 4, 3, 1]) 1 1,
    -- 3200: del x274
    .del 504,
    -- 3201: x420 += einsum("ijab->ijab", x416)
    .add 424 (.ein [(506, [0, 1, 2, 3])] [0, 1, 2, 3]) 1 1,
    -- 3202: del x416
    .del 506,
    -- 3203: l2new_bbbb = np.zeros((nvir[1], nvir[1], nocc[1], nocc[1]), dtype=types[float])
    .zeros 507 [5, 5, 4, 4],
    -- 3204: l2new_bbbb += einsum("ijab->abij", x420)
    .add 507 (.ein [(424, [0, 1, 2, 3])] [2, 3, 0, 1]) 1 1,
    -- 3205: l2new_bbbb += einsum("ijab->baij", x420) * -1
    .add 507 (.ein [(424, [0, 1, 2, 3])] [3, 2, 0, 1]) (-1) 1,
    -- 3206: del x420
    .del 424,
    -- 3207: x276 += einsum("ijka->ikja", v.bbbb.ooov)
    .add 356 (.ein [(54, [0, 1, 2, 3])] [0, 2, 1, 3]) 1 1,
    -- 3208: l1new_bb += einsum("ijkl,klia->aj", x275, x276) * -1
    .add 83 (.ein [(505, [0, 1, 2, 3]), (356, [2, 3, 0, 4])] [4, 1]) (-1) 1,
    -- 3209: del x275
    .del 505,
    -- 3210: del x276
    .del 356,
    -- 3211: x277 = np.zeros((nocc[0], nocc[1], nvir[0], nvir[1]), dtype=types[float])
    .zeros 508 [0, 4, 1, 5],
    -- 3212: x277 += einsum("ia,jbca->ijcb", t1.aa, v.bbaa.ovvv)
    .add 508 (.ein [(12, [0, 1]), (15, [2, 3, 4, 1])] [0, 2, 4, 3]) 1 1,
    -- 3213: x278 = np.zeros((nocc[0], nocc[1], nvir[0], nvir[1]), dtype=types[float])
    .zeros 509 [0, 4, 1, 5],
    -- 3214: x278 += einsum("ijab->ijab", x277)
    .add 509 (.ein [(508, [0, 1, 2, 3])] [0, 1, 2, 3]) 1 1,
    -- 3215: x383 = np.zeros((nocc[0], nocc[1], nvir[0], nvir[1]), dtype=types[float])
    .zeros 510 [0, 4, 1, 5],
    -- 3216: x383 += einsum("ijab->ijab", x277)
    .add 510 (.ein [(508, [0, 1, 2, 3])] [0, 1, 2, 3]) 1 1,
    -- 3217: x450 += einsum("ijab->ijab", x277)
    .add 153 (.ein [(508, [0, 1, 2, 3])] [0, 1, 2, 3]) 1 1,
    -- 3218: del x277
    .del 508,
    -- 3219: x278 += einsum("iabj->jiba", v.bbaa.ovvo)
    .add 509 (.ein [(44, [0, 1, 2, 3])] [3, 0, 2, 1]) 1 1,
    -- 3220: l1new_bb += einsum("ijka,ikab->bj", x1, x278) * -1
    .add 83 (.ein [(79, [0, 1, 2, 3]), (509, [0, 2, 3, 4])] [4, 1]) (-1) 1,
    -- 3221: del x278
    .del 509,
    -- 3222: x279 = np.zeros((nocc[1], nocc[1], nvir[1], nvir[1]), dtype=types[float])
    .zeros 511 [4, 4, 5, 5],
    -- 3223: x279 -= einsum("abij->jiab", l2.bbbb)
    .add 511 (.ein [(33, [0, 1, 2, 3])] [3, 2, 0, 1]) (-1) 1,
    -- 3224: x279 += einsum("abij->jiba", l2.bbbb)
    .add 511 (.ein [(33, [0, 1, 2, 3])] [3, 2, 1, 0]) 1 1,
    -- 3225: x289 = np.zeros((nbos, nocc[1], nvir[1]), dtype=types[float])
    .zeros 512 [2, 4, 5],
    -- 3226: x289 += einsum("wia,ijba->wjb", u11.bb, x279)
    .add 512 (.ein [(46, [0, 1, 2]), (511, [1, 3, 4, 2])] [0, 3, 4]) 1 1,
    -- 3227: x290 = np.zeros((nbos, nocc[1], nvir[1]), dtype=types[float])
    .zeros 513 [2, 4, 5],
    -- 3228: x290 -= einsum("wia->wia", x289)
    .add 513 (.ein [(512, [0, 1, 2])] [0, 1, 2]) (-1) 1,
    -- 3229: x402 = np.zeros((nbos, nocc[1], nvir[1]), dtype=types[float])
    .zeros 514 [2, 4, 5],
    -- 3230: x402 -= einsum("wia->wia", x289)
    .add 514 (.ein [(512, [0, 1, 2])] [0, 1, 2]) (-1) 1,
    -- 3231: del x289
    .del 512,
    -- 3232: l1new_bb += einsum("ia,ijba->bj", x158, x279) * -1
    .add 83 (.ein [(171, [0, 1]), (511, [0, 2, 3, 1])] [3, 2]) (-1) 1,
    -- 3233: del x158
    .del 171,
    -- 3234: lu11new_bb -= einsum("wai,ijba->wbj", g.bb.bvo, x279)
    .add 308 (.ein [(5, [0, 1, 2]), (511, [2, 3, 4, 1])] [0, 4, 3]) (-1) 1,
    -- 3235: x281 = np.zeros((nbos, nocc[1], nvir[1]), dtype=types[float])
    .zeros 515 [2, 4, 5],
    -- 3236: x281 += einsum("wx,wia->xia", s2, g.bb.bov)
    .add 515 (.ein [(51, [0, 1]), (6, [0, 2, 3])] [1, 2, 3]) 1 1,
    -- 3237: x284 += einsum("wia->wia", x281)
    .add 295 (.ein [(515, [0, 1, 2])] [0, 1, 2]) 1 1,
    -- 3238: x504 = np.zeros((nbos, nocc[1], nvir[1]), dtype=types[float])
    .zeros 516 [2, 4, 5],
    -- 3239: x504 += einsum("wia->wia", x281)
    .add 516 (.ein [(515, [0, 1, 2])] [0, 1, 2]) 1 1,
    -- 3240: del x281
    .del 515,
    -- 3241: x282 = np.zeros((nbos, nocc[1], nvir[1]), dtype=types[float])
    .zeros 517 [2, 4, 5],
    -- 3242: x282 += einsum("wia,iajb->wjb", u11.aa, v.aabb.ovov)
    .add 517 (.ein [(25, [0, 1, 2]), (17, [1, 2, 3, 4])] [0, 3, 4]) 1 1,
    -- 3243: x284 += einsum("wia->wia", x282)
    .add 295 (.ein [(517, [0, 1, 2])] [0, 1, 2]) 1 1,
    -- 3244: x295 += einsum("wia->wia", x282)
    .add 296 (.ein [(517, [0, 1, 2])] [0, 1, 2]) 1 1,
    -- 3245: x406 = np.zeros((nbos, nocc[1], nvir[1]), dtype=types[float])
    .zeros 518 [2, 4, 5],
    -- 3246: x406 += einsum("wia->wia", x282)
    .add 518 (.ein [(517, [0, 1, 2])] [0, 1, 2]) 1 1,
    -- 3247: x504 += einsum("wia->wia", x282)
    .add 516 (.ein [(517, [0, 1, 2])] [0, 1, 2]) 1 1,
    -- 3248: del x282
    .del 517,
    -- 3249: x284 += einsum("wia->wia", gc.bb.bov)
    .add 295 (.ein [(74, [0, 1, 2])] [0, 1, 2]) 1 1,
    -- 3250: x285 += einsum("ia,wja->wji", t1.bb, x284)
    .add 306 (.ein [(11, [0, 1]), (295, [2, 3, 1])] [2, 3, 0]) 1 1,
    -- 3251: del x284
    .del 295,
    -- 3252: x285 += einsum("wij->wij", gc.bb.boo)
    .add 306 (.ein [(73, [0, 1, 2])] [0, 1, 2]) 1 1,
    -- 3253: x285 += einsum("wx,wij->xij", s2, g.bb.boo)
    .add 306 (.ein [(51, [0, 1]), (4, [0, 2, 3])] [1, 2, 3]) 1 1,
    -- 3254: x285 += einsum("wia,iajk->wjk", u11.aa, v.aabb.ovoo)
    .add 306 (.ein [(25, [0, 1, 2]), (13, [1, 2, 3, 4])] [0, 3, 4]) 1 1,
    -- 3255: l1new_bb += einsum("wai,wji->aj", lu11.bb, x285) * -1
    .add 83 (.ein [(60, [0, 1, 2]), (306, [0, 3, 2])] [1, 3]) (-1) 1,
    -- 3256: del x285
    .del 306,
    -- 3257: x286 = np.zeros((nocc[1], nvir[1], nvir[1], nvir[1]), dtype=types[float])
    .zeros 519 [4, 5, 5, 5],
    -- 3258: x286 += einsum("iabc->ibca", v.bbbb.ovvv)
    .add 519 (.ein [(32, [0, 1, 2, 3])] [0, 2, 3, 1]) 1 1,
    -- 3259: x286 -= einsum("iabc->ibac", v.bbbb.ovvv)
    .add 519 (.ein [(32, [0, 1, 2, 3])] [0, 2, 1, 3]) (-1) 1,
    -- 3260: x287 = np.zeros((nbos, nvir[1], nvir[1]), dtype=types[float])
    .zeros 520 [2, 5, 5],
    -- 3261: x287 -= einsum("wia,ibac->wbc", u11.bb, x286)
    .add 520 (.ein [(46, [0, 1, 2]), (519, [1, 3, 2, 4])] [0, 3, 4]) (-1) 1,
    -- 3262: x378 = np.zeros((nocc[1], nocc[1], nvir[1], nvir[1]), dtype=types[float])
    .zeros 521 [4, 4, 5, 5],
    -- 3263: x378 += einsum("ia,jbac->ijbc", t1.bb, x286)
    .add 521 (.ein [(11, [0, 1]), (519, [2, 3, 1, 4])] [0, 2, 3, 4]) 1 1,
    -- 3264: x379 = np.zeros((nocc[1], nocc[1], nvir[1], nvir[1]), dtype=types[float])
    .zeros 522 [4, 4, 5, 5],
    -- 3265: x379 -= einsum("ijab->ijab", x378)
    .add 522 (.ein [(521, [0, 1, 2, 3])] [0, 1, 2, 3]) (-1) 1,
    -- 3266: del x378
    .del 521,
    -- 3267: x391 = np.zeros((nvir[1], nvir[1]), dtype=types[float])
    .zeros 523 [5, 5],
    -- 3268: x391 += einsum("ia,ibac->bc", t1.bb, x286)
    .add 523 (.ein [(11, [0, 1]), (519, [0, 2, 1, 3])] [2, 3]) 1 1,
    -- 3269: del x286
    .del 519,
    -- 3270: x392 -= einsum("ab->ab", x391)
    .add 391 (.ein [(523, [0, 1])] [0, 1]) (-1) 1,
    -- 3271: del x391
    .del 523,
    -- 3272: x393 = np.zeros((nocc[1], nocc[1], nvir[1], nvir[1]), dtype=types[float])
    .zeros 524 [4, 4, 5, 5],
    -- 3273: x393 += einsum("ab,acij->ijcb", x392, l2.bbbb)
    .add 524 (.ein [(391, [0, 1]), (33, [0, 2, 3, 4])] [3, 4, 2, 1]) 1 1,
    -- 3274: del x392
    .del 391,
    -- 3275: x415 += einsum("ijab->jiab", x393)
    .add 235 (.ein [(524, [0, 1, 2, 3])] [1, 0, 2, 3]) 1 1,
    -- 3276: del x393
    .del 524,
    -- 3277: x287 += einsum("wab->wab", gc.bb.bvv)
    .add 520 (.ein [(76, [0, 1, 2])] [0, 1, 2]) 1 1,
    -- 3278: x287 += einsum("wx,wab->xab", s2, g.bb.bvv)
    .add 520 (.ein [(51, [0, 1]), (7, [0, 2, 3])] [1, 2, 3]) 1 1,
    -- 3279: x287 += einsum("wia,iabc->wbc", u11.aa, v.aabb.ovvv)
    .add 520 (.ein [(25, [0, 1, 2]), (10, [1, 2, 3, 4])] [0, 3, 4]) 1 1,
    -- 3280: l1new_bb += einsum("wai,wab->bi", lu11.bb, x287)
    .add 83 (.ein [(60, [0, 1, 2]), (520, [0, 1, 3])] [3, 2]) 1 1,
    -- 3281: del x287
    .del 520,
    -- 3282: x288 = np.zeros((nbos, nocc[1], nvir[1]), dtype=types[float])
    .zeros 525 [2, 4, 5],
    -- 3283: x288 += einsum("wia,abij->wjb", u11.aa, l2.abab)
    .add 525 (.ein [(25, [0, 1, 2]), (8, [2, 3, 1, 4])] [0, 4, 3]) 1 1,
    -- 3284: x290 += einsum("wia->wia", x288)
    .add 513 (.ein [(525, [0, 1, 2])] [0, 1, 2]) 1 1,
    -- 3285: x506 = np.zeros((nocc[0], nocc[1], nvir[0], nvir[1]), dtype=types[float])
    .zeros 526 [0, 4, 1, 5],
    -- 3286: x506 += einsum("wia,wjb->ijab", g.aa.bov, x290)
    .add 526 (.ein [(2, [0, 1, 2]), (513, [0, 3, 4])] [1, 3, 2, 4]) 1 1,
    -- 3287: l2new_baba += einsum("ijab->baji", x506)
    .add 92 (.ein [(526, [0, 1, 2, 3])] [3, 2, 1, 0]) 1 1,
    -- 3288: l2new_abab += einsum("ijab->abij", x506)
    .add 93 (.ein [(526, [0, 1, 2, 3])] [2, 3, 0, 1]) 1 1,
    -- 3289: del x506
    .del 526,
    -- 3290: l1new_bb += einsum("wab,wia->bi", g.bb.bvv, x290)
    .add 83 (.ein [(7, [0, 1, 2]), (513, [0, 3, 1])] [2, 3]) 1 1,
    -- 3291: l1new_bb += einsum("wij,wja->ai", x138, x290) * -1
    .add 83 (.ein [(366, [0, 1, 2]), (513, [0, 2, 3])] [3, 1]) (-1) 1,
    -- 3292: del x138
    .del 366,
    -- 3293: del x290
    .del 513,
    -- 3294: x292 += einsum("wia->wia", x288)
    .add 492 (.ein [(525, [0, 1, 2])] [0, 1, 2]) 1 1,
    -- 3295: x402 += einsum("wia->wia", x288)
    .add 514 (.ein [(525, [0, 1, 2])] [0, 1, 2]) 1 1,
    -- 3296: del x288
    .del 525,
    -- 3297: x291 = np.zeros((nbos, nocc[1], nvir[1]), dtype=types[float])
    .zeros 527 [2, 4, 5],
    -- 3298: x291 += einsum("wx,xai->wia", s2, lu11.bb)
    .add 527 (.ein [(51, [0, 1]), (60, [1, 2, 3])] [0, 3, 2]) 1 1,
    -- 3299: x292 += einsum("wia->wia", x291)
    .add 492 (.ein [(527, [0, 1, 2])] [0, 1, 2]) 1 1,
    -- 3300: x294 += einsum("ia,wja->wji", t1.bb, x292)
    .add 439 (.ein [(11, [0, 1]), (492, [2, 3, 1])] [2, 3, 0]) 1 1,
    -- 3301: del x292
    .del 492,
    -- 3302: x402 += einsum("wia->wia", x291)
    .add 514 (.ein [(527, [0, 1, 2])] [0, 1, 2]) 1 1,
    -- 3303: del x291
    .del 527,
    -- 3304: x403 = np.zeros((nocc[1], nocc[1], nvir[1], nvir[1]), dtype=types[float])
    .zeros 528 [4, 4, 5, 5],
    -- 3305: x403 += einsum("wia,wjb->ijab", g.bb.bov, x402)
    .add 528 (.ein [(6, [0, 1, 2]), (514, [0, 3, 4])] [1, 3, 2, 4]) 1 1,
    -- 3306: del x402
    .del 514,
    -- 3307: x415 += einsum("ijab->ijab", x403)
    .add 235 (.ein [(528, [0, 1, 2, 3])] [0, 1, 2, 3]) 1 1,
    -- 3308: del x403
    .del 528,
    -- 3309: x294 += einsum("ai,wja->wij", l1.bb, u11.bb)
    .add 439 (.ein [(39, [0, 1]), (46, [2, 3, 0])] [2, 1, 3]) 1 1,
    -- 3310: l1new_bb += einsum("wia,wji->aj", g.bb.bov, x294) * -1
    .add 83 (.ein [(6, [0, 1, 2]), (439, [0, 3, 1])] [2, 3]) (-1) 1,
    -- 3311: del x294
    .del 439,
    -- 3312: x295 += einsum("wia->wia", gc.bb.bov)
    .add 296 (.ein [(74, [0, 1, 2])] [0, 1, 2]) 1 1,
    -- 3313: l1new_bb += einsum("wij,wja->ai", x178, x295) * -1
    .add 83 (.ein [(413, [0, 1, 2]), (296, [0, 2, 3])] [3, 1]) (-1) 1,
    -- 3314: del x178
    .del 413,
    -- 3315: del x295
    .del 296,
    -- 3316: x296 = np.zeros((nocc[1], nocc[1], nvir[1], nvir[1]), dtype=types[float])
    .zeros 529 [4, 4, 5, 5],
    -- 3317: x296 += einsum("iabj->ijba", v.bbbb.ovvo)
    .add 529 (.ein [(55, [0, 1, 2, 3])] [0, 3, 2, 1]) 1 1,
    -- 3318: x296 -= einsum("ijab->ijab", v.bbbb.oovv)
    .add 529 (.ein [(56, [0, 1, 2, 3])] [0, 1, 2, 3]) (-1) 1,
    -- 3319: l1new_bb += einsum("ai,jiab->bj", l1.bb, x296)
    .add 83 (.ein [(39, [0, 1]), (529, [2, 1, 0, 3])] [3, 2]) 1 1,
    -- 3320: lu11new_bb += einsum("wai,jiab->wbj", lu11.bb, x296)
    .add 308 (.ein [(60, [0, 1, 2]), (529, [3, 2, 1, 4])] [0, 4, 3]) 1 1,
    -- 3321: del x296
    .del 529,
    -- 3322: x298 = np.zeros((nocc[0], nocc[0], nvir[0], nvir[0]), dtype=types[float])
    .zeros 530 [0, 0, 1, 1],
    -- 3323: x298 += einsum("wia,wbj->ijab", gc.aa.bov, lu11.aa)
    .add 530 (.ein [(70, [0, 1, 2]), (53, [0, 3, 4])] [1, 4, 2, 3]) 1 1,
    -- 3324: x342 += einsum("ijab->ijab", x298)
    .add 90 (.ein [(530, [0, 1, 2, 3])] [0, 1, 2, 3]) 1 1,
    -- 3325: del x298
    .del 530,
    -- 3326: x299 = np.zeros((nocc[0], nocc[0], nvir[0], nvir[0]), dtype=types[float])
    .zeros 531 [0, 0, 1, 1],
    -- 3327: x299 += einsum("ai,jbac->ijbc", l1.aa, v.aaaa.ovvv)
    .add 531 (.ein [(18, [0, 1]), (23, [2, 3, 0, 4])] [1, 2, 3, 4]) 1 1,
    -- 3328: x342 -= einsum("ijab->ijab", x299)
    .add 90 (.ein [(531, [0, 1, 2, 3])] [0, 1, 2, 3]) (-1) 1,
    -- 3329: del x299
    .del 531,
    -- 3330: x305 = np.zeros((nocc[0], nocc[0], nvir[0], nvir[0]), dtype=types[float])
    .zeros 532 [0, 0, 1, 1],
    -- 3331: x305 += einsum("abij->jiab", l2.aaaa)
    .add 532 (.ein [(26, [0, 1, 2, 3])] [3, 2, 0, 1]) 1 1,
    -- 3332: x305 -= einsum("abij->jiba", l2.aaaa)
    .add 532 (.ein [(26, [0, 1, 2, 3])] [3, 2, 1, 0]) (-1) 1,
    -- 3333: x307 += einsum("ijab->jiab", v.aaaa.oovv)
    .add 452 (.ein [(29, [0, 1, 2, 3])] [1, 0, 2, 3]) 1 1,
    -- 3334: x307 -= einsum("iabj->jiba", v.aaaa.ovvo)
    .add 452 (.ein [(28, [0, 1, 2, 3])] [3, 0, 2, 1]) (-1) 1,
    -- 3335: x308 = np.zeros((nocc[0], nocc[0], nvir[0], nvir[0]), dtype=types[float])
    .zeros 533 [0, 0, 1, 1],
    -- 3336: x308 += einsum("ijab,ikac->jkbc", x305, x307)
    .add 533 (.ein [(532, [0, 1, 2, 3]), (452, [0, 4, 2, 5])] [1, 4, 3, 5]) 1 1,
    -- 3337: del x305
    .del 532,
    -- 3338: del x307
    .del 452,
    -- 3339: x342 += einsum("ijab->ijab", x308)
    .add 90 (.ein [(533, [0, 1, 2, 3])] [0, 1, 2, 3]) 1 1,
    -- 3340: del x308
    .del 533,
    -- 3341: x309 = np.zeros((nocc[1], nocc[1], nvir[1], nvir[1]), dtype=types[float])
    .zeros 534 [4, 4, 5, 5],
    -- 3342: x309 -= einsum("ijab->jiab", t2.bbbb)
    .add 534 (.ein [(31, [0, 1, 2, 3])] [1, 0, 2, 3]) (-1) 1,
    -- 3343: x309 += einsum("ijab->jiba", t2.bbbb)
    .add 534 (.ein [(31, [0, 1, 2, 3])] [1, 0, 3, 2]) 1 1,
    -- 3344: x310 = np.zeros((nocc[0], nocc[1], nvir[0], nvir[1]), dtype=types[float])
    .zeros 535 [0, 4, 1, 5],
    -- 3345: x310 += einsum("iajb,jkcb->ikac", v.aabb.ovov, x309)
    .add 535 (.ein [(17, [0, 1, 2, 3]), (534, [2, 4, 5, 3])] [0, 4, 1, 5]) 1 1,
    -- 3346: x311 -= einsum("ijab->ijab", x310)
    .add 205 (.ein [(535, [0, 1, 2, 3])] [0, 1, 2, 3]) (-1) 1,
    -- 3347: del x310
    .del 535,
    -- 3348: x527 = np.zeros((nbos, nocc[1], nvir[1]), dtype=types[float])
    .zeros 536 [2, 4, 5],
    -- 3349: x527 += einsum("wia,ijba->wjb", g.bb.bov, x309)
    .add 536 (.ein [(6, [0, 1, 2]), (534, [1, 3, 4, 2])] [0, 3, 4]) 1 1,
    -- 3350: del x309
    .del 534,
    -- 3351: x530 = np.zeros((nbos, nocc[1], nvir[1]), dtype=types[float])
    .zeros 537 [2, 4, 5],
    -- 3352: x530 -= einsum("wia->wia", x527)
    .add 537 (.ein [(536, [0, 1, 2])] [0, 1, 2]) (-1) 1,
    -- 3353: del x527
    .del 536,
    -- 3354: x311 += einsum("iabj->ijab", v.aabb.ovvo)
    .add 205 (.ein [(36, [0, 1, 2, 3])] [0, 3, 1, 2]) 1 1,
    -- 3355: x312 = np.zeros((nocc[0], nocc[0], nvir[0], nvir[0]), dtype=types[float])
    .zeros 538 [0, 0, 1, 1],
    -- 3356: x312 += einsum("abij,kjcb->ikac", l2.abab, x311)
    .add 538 (.ein [(8, [0, 1, 2, 3]), (205, [4, 3, 5, 1])] [2, 4, 0, 5]) 1 1,
    -- 3357: del x311
    .del 205,
    -- 3358: x342 += einsum("ijab->ijab", x312)
    .add 90 (.ein [(538, [0, 1, 2, 3])] [0, 1, 2, 3]) 1 1,
    -- 3359: del x312
    .del 538,
    -- 3360: x314 = np.zeros((nocc[0], nocc[0], nocc[0], nvir[0]), dtype=types[float])
    .zeros 539 [0, 0, 0, 1],
    -- 3361: x314 -= einsum("ijka->ikja", v.aaaa.ooov)
    .add 539 (.ein [(27, [0, 1, 2, 3])] [0, 2, 1, 3]) (-1) 1,
    -- 3362: x314 += einsum("ijka->kija", v.aaaa.ooov)
    .add 539 (.ein [(27, [0, 1, 2, 3])] [2, 0, 1, 3]) 1 1,
    -- 3363: x315 = np.zeros((nocc[0], nocc[0], nvir[0], nvir[0]), dtype=types[float])
    .zeros 540 [0, 0, 1, 1],
    -- 3364: x315 += einsum("ijka,lkib->jlab", x313, x314)
    .add 540 (.ein [(253, [0, 1, 2, 3]), (539, [4, 2, 0, 5])] [1, 4, 3, 5]) 1 1,
    -- 3365: del x313
    .del 253,
    -- 3366: x342 += einsum("ijab->ijab", x315)
    .add 90 (.ein [(540, [0, 1, 2, 3])] [0, 1, 2, 3]) 1 1,
    -- 3367: del x315
    .del 540,
    -- 3368: l2new_abab += einsum("ijka,kilb->abjl", x314, x56)
    .add 93 (.ein [(539, [0, 1, 2, 3]), (231, [2, 0, 4, 5])] [3, 5, 1, 4]) 1 1,
    -- 3369: del x314
    .del 539,
    -- 3370: x316 = np.zeros((nvir[0], nvir[0]), dtype=types[float])
    .zeros 541 [1, 1],
    -- 3371: x316 += einsum("wia,wib->ab", g.aa.bov, u11.aa)
    .add 541 (.ein [(2, [0, 1, 2]), (25, [0, 1, 3])] [2, 3]) 1 1,
    -- 3372: x317 -= einsum("ab->ba", x316)
    .add 326 (.ein [(541, [0, 1])] [1, 0]) (-1) 1,
    -- 3373: x487 += einsum("ab->ba", x316) * -1
    .add 225 (.ein [(541, [0, 1])] [1, 0]) (-1) 1,
    -- 3374: del x316
    .del 541,
    -- 3375: x317 += einsum("ab->ab", f.aa.vv)
    .add 326 (.ein [(49, [0, 1])] [0, 1]) 1 1,
    -- 3376: x318 = np.zeros((nocc[0], nocc[0], nvir[0], nvir[0]), dtype=types[float])
    .zeros 542 [0, 0, 1, 1],
    -- 3377: x318 += einsum("ab,acij->ijcb", x317, l2.aaaa)
    .add 542 (.ein [(326, [0, 1]), (26, [0, 2, 3, 4])] [3, 4, 2, 1]) 1 1,
    -- 3378: del x317
    .del 326,
    -- 3379: x342 -= einsum("ijab->jiba", x318)
    .add 90 (.ein [(542, [0, 1, 2, 3])] [1, 0, 3, 2]) (-1) 1,
    -- 3380: del x318
    .del 542,
    -- 3381: x322 += einsum("ia->ia", f.aa.ov)
    .add 104 (.ein [(20, [0, 1])] [0, 1]) 1 1,
    -- 3382: x323 = np.zeros((nocc[0], nocc[0]), dtype=types[float])
    .zeros 543 [0, 0],
    -- 3383: x323 += einsum("ia,ja->ij", t1.aa, x322)
    .add 543 (.ein [(12, [0, 1]), (104, [2, 1])] [0, 2]) 1 1,
    -- 3384: x324 += einsum("ij->ji", x323)
    .add 314 (.ein [(543, [0, 1])] [1, 0]) 1 1,
    -- 3385: del x323
    .del 543,
    -- 3386: x337 = np.zeros((nocc[0], nocc[0], nvir[0], nvir[0]), dtype=types[float])
    .zeros 544 [0, 0, 1, 1],
    -- 3387: x337 += einsum("ia,jkib->jkba", x322, x57)
    .add 544 (.ein [(104, [0, 1]), (240, [2, 3, 0, 4])] [2, 3, 4, 1]) 1 1,
    -- 3388: del x57
    .del 240,
    -- 3389: x342 += einsum("ijab->ijba", x337)
    .add 90 (.ein [(544, [0, 1, 2, 3])] [0, 1, 3, 2]) 1 1,
    -- 3390: del x337
    .del 544,
    -- 3391: x342 += einsum("ai,jb->jiba", l1.aa, x322)
    .add 90 (.ein [(18, [0, 1]), (104, [2, 3])] [2, 1, 3, 0]) 1 1,
    -- 3392: del x322
    .del 104,
    -- 3393: x324 += einsum("ij->ij", f.aa.oo)
    .add 314 (.ein [(48, [0, 1])] [0, 1]) 1 1,
    -- 3394: x325 = np.zeros((nocc[0], nocc[0], nvir[0], nvir[0]), dtype=types[float])
    .zeros 545 [0, 0, 1, 1],
    -- 3395: x325 += einsum("ij,abjk->kiab", x324, l2.aaaa)
    .add 545 (.ein [(314, [0, 1]), (26, [2, 3, 1, 4])] [4, 0, 2, 3]) 1 1,
    -- 3396: del x324
    .del 314,
    -- 3397: x342 += einsum("ijab->jiba", x325)
    .add 90 (.ein [(545, [0, 1, 2, 3])] [1, 0, 3, 2]) 1 1,
    -- 3398: del x325
    .del 545,
    -- 3399: x326 = np.zeros((nocc[0], nocc[0], nocc[0], nvir[0]), dtype=types[float])
    .zeros 546 [0, 0, 0, 1],
    -- 3400: x326 += einsum("ijka->ikja", v.aaaa.ooov)
    .add 546 (.ein [(27, [0, 1, 2, 3])] [0, 2, 1, 3]) 1 1,
    -- 3401: x326 -= einsum("ijka->kija", v.aaaa.ooov)
    .add 546 (.ein [(27, [0, 1, 2, 3])] [2, 0, 1, 3]) (-1) 1,
    -- 3402: x327 = np.zeros((nocc[0], nocc[0]), dtype=types[float])
    .zeros 547 [0, 0],
    -- 3403: x327 += einsum("ia,ijka->jk", t1.aa, x326)
    .add 547 (.ein [(12, [0, 1]), (546, [0, 2, 3, 1])] [2, 3]) 1 1,
    -- 3404: x328 -= einsum("ij->ij", x327)
    .add 317 (.ein [(547, [0, 1])] [0, 1]) (-1) 1,
    -- 3405: del x327
    .del 547,
    -- 3406: x329 = np.zeros((nocc[0], nocc[0], nvir[0], nvir[0]), dtype=types[float])
    .zeros 548 [0, 0, 1, 1],
    -- 3407: x329 += einsum("ij,abjk->kiab", x328, l2.aaaa)
    .add 548 (.ein [(317, [0, 1]), (26, [2, 3, 1, 4])] [4, 0, 2, 3]) 1 1,
    -- 3408: del x328
    .del 317,
    -- 3409: x342 -= einsum("ijab->ijba", x329)
    .add 90 (.ein [(548, [0, 1, 2, 3])] [0, 1, 3, 2]) (-1) 1,
    -- 3410: del x329
    .del 548,
    -- 3411: l2new_baba -= einsum("ijka,kilb->balj", x326, x56)
    .add 92 (.ein [(546, [0, 1, 2, 3]), (231, [2, 0, 4, 5])] [5, 3, 4, 1]) (-1) 1,
    -- 3412: del x56
    .del 231,
    -- 3413: del x326
    .del 546,
    -- 3414: x338 -= einsum("ijka->jika", v.aaaa.ooov)
    .add 139 (.ein [(27, [0, 1, 2, 3])] [1, 0, 2, 3]) (-1) 1,
    -- 3415: x339 = np.zeros((nocc[0], nocc[0], nvir[0], nvir[0]), dtype=types[float])
    .zeros 549 [0, 0, 1, 1],
    -- 3416: x339 += einsum("ai,ijkb->jkab", l1.aa, x338)
    .add 549 (.ein [(18, [0, 1]), (139, [1, 2, 3, 4])] [2, 3, 0, 4]) 1 1,
    -- 3417: del x338
    .del 139,
    -- 3418: x342 += einsum("ijab->ijab", x339)
    .add 90 (.ein [(549, [0, 1, 2, 3])] [0, 1, 2, 3]) 1 1,
    -- 3419: del x339
    .del 549,
    -- 3420: l2new_aaaa += einsum("ijab->abij", x342)
    .add 272 (.ein [(90, [0, 1, 2, 3])] [2, 3, 0, 1]) 1 1,
    -- 3421: l2new_aaaa -= einsum("ijab->baij", x342)
    .add 272 (.ein [(90, [0, 1, 2, 3])] [3, 2, 0, 1]) (-1) 1,
    -- 3422: l2new_aaaa -= einsum("ijab->abji", x342)
    .add 272 (.ein [(90, [0, 1, 2, 3])] [2, 3, 1, 0]) (-1) 1,
    -- 3423: l2new_aaaa += einsum("ijab->baji", x342)
    .add 272 (.ein [(90, [0, 1, 2, 3])] [3, 2, 1, 0]) 1 1,
    -- 3424: del x342
    .del 90,
    -- 3425: x343 = np.zeros((nocc[0], nocc[0], nvir[0], nvir[0]), dtype=types[float])
    .zeros 550 [0, 0, 1, 1],
    -- 3426: x343 += einsum("ijab,kcjb->ikac", t2.abab, v.aabb.ovov)
    .add 550 (.ein [(9, [0, 1, 2, 3]), (17, [4, 5, 1, 3])] [0, 4, 2, 5]) 1 1,
    -- 3427: x345 += einsum("ijab->ijab", x343)
    .add 220 (.ein [(550, [0, 1, 2, 3])] [0, 1, 2, 3]) 1 1,
    -- 3428: x346 = np.zeros((nocc[0], nocc[0], nvir[0], nvir[0]), dtype=types[float])
    .zeros 551 [0, 0, 1, 1],
    -- 3429: x346 += einsum("ijab,ikac->kjcb", x345, x48)
    .add 551 (.ein [(220, [0, 1, 2, 3]), (210, [0, 4, 2, 5])] [4, 1, 5, 3]) 1 1,
    -- 3430: del x48
    .del 210,
    -- 3431: del x345
    .del 220,
    -- 3432: x362 += einsum("ijab->ijab", x346)
    .add 209 (.ein [(551, [0, 1, 2, 3])] [0, 1, 2, 3]) 1 1,
    -- 3433: del x346
    .del 551,
    -- 3434: x459 += einsum("ijab->jiab", x343)
    .add 228 (.ein [(550, [0, 1, 2, 3])] [1, 0, 2, 3]) 1 1,
    -- 3435: del x343
    .del 550,
    -- 3436: x354 = np.zeros((nvir[0], nvir[0]), dtype=types[float])
    .zeros 552 [1, 1],
    -- 3437: x354 += einsum("ijab,icjb->ac", t2.abab, v.aabb.ovov)
    .add 552 (.ein [(9, [0, 1, 2, 3]), (17, [0, 4, 1, 3])] [2, 4]) 1 1,
    -- 3438: x356 += einsum("ab->ab", x354)
    .add 223 (.ein [(552, [0, 1])] [0, 1]) 1 1,
    -- 3439: x357 = np.zeros((nocc[0], nocc[0], nvir[0], nvir[0]), dtype=types[float])
    .zeros 553 [0, 0, 1, 1],
    -- 3440: x357 += einsum("ab,acij->ijcb", x356, l2.aaaa)
    .add 553 (.ein [(223, [0, 1]), (26, [0, 2, 3, 4])] [3, 4, 2, 1]) 1 1,
    -- 3441: del x356
    .del 223,
    -- 3442: x362 += einsum("ijab->jiab", x357)
    .add 209 (.ein [(553, [0, 1, 2, 3])] [1, 0, 2, 3]) 1 1,
    -- 3443: del x357
    .del 553,
    -- 3444: l2new_aaaa += einsum("ijab->abij", x362) * -1
    .add 272 (.ein [(209, [0, 1, 2, 3])] [2, 3, 0, 1]) (-1) 1,
    -- 3445: l2new_aaaa += einsum("ijab->baij", x362)
    .add 272 (.ein [(209, [0, 1, 2, 3])] [3, 2, 0, 1]) 1 1,
    -- 3446: l2new_aaaa += einsum("ijab->abji", x362)
    .add 272 (.ein [(209, [0, 1, 2, 3])] [2, 3, 1, 0]) 1 1,
    -- 3447: l2new_aaaa += einsum("ijab->baji", x362) * -1
    .add 272 (.ein [(209, [0, 1, 2, 3])] [3, 2, 1, 0]) (-1) 1,
    -- 3448: del x362
    .del 209,
    -- 3449: x487 += einsum("ab->ab", x354) * -1
    .add 225 (.ein [(552, [0, 1])] [0, 1]) (-1) 1,
    -- 3450: del x354
    .del 552,
    -- 3451: x363 = np.zeros((nocc[0], nocc[0], nvir[0], nvir[0]), dtype=types[float])
    .zeros 554 [0, 0, 1, 1],
    -- 3452: x363 += einsum("abij,kjli->klba", l2.aaaa, v.aaaa.oooo)
    .add 554 (.ein [(26, [0, 1, 2, 3]), (30, [4, 3, 5, 2])] [4, 5, 1, 0]) 1 1,
    -- 3453: x365 = np.zeros((nocc[0], nocc[0], nvir[0], nvir[0]), dtype=types[float])
    .zeros 555 [0, 0, 1, 1],
    -- 3454: x365 += einsum("ijab->jiba", x363)
    .add 555 (.ein [(554, [0, 1, 2, 3])] [1, 0, 3, 2]) 1 1,
    -- 3455: del x363
    .del 554,
    -- 3456: x364 = np.zeros((nocc[0], nocc[0], nvir[0], nvir[0]), dtype=types[float])
    .zeros 556 [0, 0, 1, 1],
    -- 3457: x364 += einsum("abij,acbd->ijcd", l2.aaaa, v.aaaa.vvvv)
    .add 556 (.ein [(26, [0, 1, 2, 3]), (40, [0, 4, 1, 5])] [2, 3, 4, 5]) 1 1,
    -- 3458: x365 += einsum("ijab->jiba", x364)
    .add 555 (.ein [(556, [0, 1, 2, 3])] [1, 0, 3, 2]) 1 1,
    -- 3459: del x364
    .del 556,
    -- 3460: l2new_aaaa += einsum("ijab->baij", x365) * -1
    .add 272 (.ein [(555, [0, 1, 2, 3])] [3, 2, 0, 1]) (-1) 1,
    -- 3461: l2new_aaaa += einsum("ijab->abij", x365)
    .add 272 (.ein [(555, [0, 1, 2, 3])] [2, 3, 0, 1]) 1 1,
    -- 3462: del x365
    .del 555,
    -- 3463: x371 = np.zeros((nocc[1], nocc[1], nvir[1], nvir[1]), dtype=types[float])
    .zeros 557 [4, 4, 5, 5],
    -- 3464: x371 += einsum("wia,wbj->ijab", gc.bb.bov, lu11.bb)
    .add 557 (.ein [(74, [0, 1, 2]), (60, [0, 3, 4])] [1, 4, 2, 3]) 1 1,
    -- 3465: x415 += einsum("ijab->ijab", x371)
    .add 235 (.ein [(557, [0, 1, 2, 3])] [0, 1, 2, 3]) 1 1,
    -- 3466: del x371
    .del 557,
    -- 3467: x372 = np.zeros((nocc[1], nocc[1], nvir[1], nvir[1]), dtype=types[float])
    .zeros 558 [4, 4, 5, 5],
    -- 3468: x372 += einsum("ai,jbac->ijbc", l1.bb, v.bbbb.ovvv)
    .add 558 (.ein [(39, [0, 1]), (32, [2, 3, 0, 4])] [1, 2, 3, 4]) 1 1,
    -- 3469: x415 -= einsum("ijab->ijab", x372)
    .add 235 (.ein [(558, [0, 1, 2, 3])] [0, 1, 2, 3]) (-1) 1,
    -- 3470: del x372
    .del 558,
    -- 3471: x379 += einsum("ijab->jiab", v.bbbb.oovv)
    .add 522 (.ein [(56, [0, 1, 2, 3])] [1, 0, 2, 3]) 1 1,
    -- 3472: x379 -= einsum("iabj->jiba", v.bbbb.ovvo)
    .add 522 (.ein [(55, [0, 1, 2, 3])] [3, 0, 2, 1]) (-1) 1,
    -- 3473: x380 = np.zeros((nocc[1], nocc[1], nvir[1], nvir[1]), dtype=types[float])
    .zeros 559 [4, 4, 5, 5],
    -- 3474: x380 += einsum("ijab,ikbc->jkac", x279, x379)
    .add 559 (.ein [(511, [0, 1, 2, 3]), (522, [0, 4, 3, 5])] [1, 4, 2, 5]) 1 1,
    -- 3475: del x379
    .del 522,
    -- 3476: del x279
    .del 511,
    -- 3477: x415 += einsum("ijab->ijab", x380)
    .add 235 (.ein [(559, [0, 1, 2, 3])] [0, 1, 2, 3]) 1 1,
    -- 3478: del x380
    .del 559,
    -- 3479: x381 = np.zeros((nocc[0], nocc[0], nvir[0], nvir[0]), dtype=types[float])
    .zeros 560 [0, 0, 1, 1],
    -- 3480: x381 -= einsum("ijab->jiab", t2.aaaa)
    .add 560 (.ein [(21, [0, 1, 2, 3])] [1, 0, 2, 3]) (-1) 1,
    -- 3481: x381 += einsum("ijab->jiba", t2.aaaa)
    .add 560 (.ein [(21, [0, 1, 2, 3])] [1, 0, 3, 2]) 1 1,
    -- 3482: x382 = np.zeros((nocc[0], nocc[1], nvir[0], nvir[1]), dtype=types[float])
    .zeros 561 [0, 4, 1, 5],
    -- 3483: x382 += einsum("iajb,ikca->kjcb", v.aabb.ovov, x381)
    .add 561 (.ein [(17, [0, 1, 2, 3]), (560, [0, 4, 5, 1])] [4, 2, 5, 3]) 1 1,
    -- 3484: x383 -= einsum("ijab->ijab", x382)
    .add 510 (.ein [(561, [0, 1, 2, 3])] [0, 1, 2, 3]) (-1) 1,
    -- 3485: del x382
    .del 561,
    -- 3486: x520 = np.zeros((nbos, nocc[0], nvir[0]), dtype=types[float])
    .zeros 562 [2, 0, 1],
    -- 3487: x520 += einsum("wia,ijba->wjb", g.aa.bov, x381)
    .add 562 (.ein [(2, [0, 1, 2]), (560, [1, 3, 4, 2])] [0, 3, 4]) 1 1,
    -- 3488: del x381
    .del 560,
    -- 3489: x523 = np.zeros((nbos, nocc[0], nvir[0]), dtype=types[float])
    .zeros 563 [2, 0, 1],
    -- 3490: x523 -= einsum("wia->wia", x520)
    .add 563 (.ein [(562, [0, 1, 2])] [0, 1, 2]) (-1) 1,
    -- 3491: del x520
    .del 562,
    -- 3492: x383 += einsum("iabj->jiba", v.bbaa.ovvo)
    .add 510 (.ein [(44, [0, 1, 2, 3])] [3, 0, 2, 1]) 1 1,
    -- 3493: x384 = np.zeros((nocc[1], nocc[1], nvir[1], nvir[1]), dtype=types[float])
    .zeros 564 [4, 4, 5, 5],
    -- 3494: x384 += einsum("abij,ikac->jkbc", l2.abab, x383)
    .add 564 (.ein [(8, [0, 1, 2, 3]), (510, [2, 4, 0, 5])] [3, 4, 1, 5]) 1 1,
    -- 3495: del x383
    .del 510,
    -- 3496: x415 += einsum("ijab->ijab", x384)
    .add 235 (.ein [(564, [0, 1, 2, 3])] [0, 1, 2, 3]) 1 1,
    -- 3497: del x384
    .del 564,
    -- 3498: x386 = np.zeros((nocc[1], nocc[1], nocc[1], nvir[1]), dtype=types[float])
    .zeros 565 [4, 4, 4, 5],
    -- 3499: x386 -= einsum("ijka->ikja", v.bbbb.ooov)
    .add 565 (.ein [(54, [0, 1, 2, 3])] [0, 2, 1, 3]) (-1) 1,
    -- 3500: x386 += einsum("ijka->kija", v.bbbb.ooov)
    .add 565 (.ein [(54, [0, 1, 2, 3])] [2, 0, 1, 3]) 1 1,
    -- 3501: x387 = np.zeros((nocc[1], nocc[1], nvir[1], nvir[1]), dtype=types[float])
    .zeros 566 [4, 4, 5, 5],
    -- 3502: x387 += einsum("ijka,lkjb->ilab", x385, x386)
    .add 566 (.ein [(426, [0, 1, 2, 3]), (565, [4, 2, 1, 5])] [0, 4, 3, 5]) 1 1,
    -- 3503: del x385
    .del 426,
    -- 3504: del x386
    .del 565,
    -- 3505: x415 += einsum("ijab->ijab", x387)
    .add 235 (.ein [(566, [0, 1, 2, 3])] [0, 1, 2, 3]) 1 1,
    -- 3506: del x387
    .del 566,
    -- 3507: x388 = np.zeros((nvir[1], nvir[1]), dtype=types[float])
    .zeros 567 [5, 5],
    -- 3508: x388 += einsum("wia,wib->ab", g.bb.bov, u11.bb)
    .add 567 (.ein [(6, [0, 1, 2]), (46, [0, 1, 3])] [2, 3]) 1 1,
    -- 3509: x389 -= einsum("ab->ba", x388)
    .add 389 (.ein [(567, [0, 1])] [1, 0]) (-1) 1,
    -- 3510: x490 += einsum("ab->ba", x388) * -1
    .add 300 (.ein [(567, [0, 1])] [1, 0]) (-1) 1,
    -- 3511: del x388
    .del 567,
    -- 3512: x389 += einsum("ab->ab", f.bb.vv)
    .add 389 (.ein [(58, [0, 1])] [0, 1]) 1 1,
    -- 3513: x390 = np.zeros((nocc[1], nocc[1], nvir[1], nvir[1]), dtype=types[float])
    .zeros 568 [4, 4, 5, 5],
    -- 3514: x390 += einsum("ab,acij->ijcb", x389, l2.bbbb)
    .add 568 (.ein [(389, [0, 1]), (33, [0, 2, 3, 4])] [3, 4, 2, 1]) 1 1,
    -- 3515: del x389
    .del 389,
    -- 3516: x415 -= einsum("ijab->jiba", x390)
    .add 235 (.ein [(568, [0, 1, 2, 3])] [1, 0, 3, 2]) (-1) 1,
    -- 3517: del x390
    .del 568,
    -- 3518: x394 += einsum("ia->ia", f.bb.ov)
    .add 283 (.ein [(47, [0, 1])] [0, 1]) 1 1,
    -- 3519: x395 = np.zeros((nocc[1], nocc[1]), dtype=types[float])
    .zeros 569 [4, 4],
    -- 3520: x395 += einsum("ia,ja->ij", t1.bb, x394)
    .add 569 (.ein [(11, [0, 1]), (283, [2, 1])] [0, 2]) 1 1,
    -- 3521: x396 += einsum("ij->ji", x395)
    .add 370 (.ein [(569, [0, 1])] [1, 0]) 1 1,
    -- 3522: del x395
    .del 569,
    -- 3523: x410 = np.zeros((nocc[1], nocc[1], nvir[1], nvir[1]), dtype=types[float])
    .zeros 570 [4, 4, 5, 5],
    -- 3524: x410 += einsum("ia,jkib->jkba", x394, x181)
    .add 570 (.ein [(283, [0, 1]), (415, [2, 3, 0, 4])] [2, 3, 4, 1]) 1 1,
    -- 3525: del x181
    .del 415,
    -- 3526: x415 += einsum("ijab->ijba", x410)
    .add 235 (.ein [(570, [0, 1, 2, 3])] [0, 1, 3, 2]) 1 1,
    -- 3527: del x410
    .del 570,
    -- 3528: x415 += einsum("ai,jb->jiba", l1.bb, x394)
    .add 235 (.ein [(39, [0, 1]), (283, [2, 3])] [2, 1, 3, 0]) 1 1,
    -- 3529: del x394
    .del 283,
    -- 3530: x396 += einsum("ij->ij", f.bb.oo)
    .add 370 (.ein [(57, [0, 1])] [0, 1]) 1 1,
    -- 3531: x397 = np.zeros((nocc[1], nocc[1], nvir[1], nvir[1]), dtype=types[float])
    .zeros 571 [4, 4, 5, 5],
    -- 3532: x397 += einsum("ij,abjk->kiab", x396, l2.bbbb)
    .add 571 (.ein [(370, [0, 1]), (33, [2, 3, 1, 4])] [4, 0, 2, 3]) 1 1,
    -- 3533: del x396
    .del 370,
    -- 3534: x415 += einsum("ijab->jiba", x397)
    .add 235 (.ein [(571, [0, 1, 2, 3])] [1, 0, 3, 2]) 1 1,
    -- 3535: del x397
    .del 571,
    -- 3536: x398 = np.zeros((nocc[1], nocc[1], nocc[1], nvir[1]), dtype=types[float])
    .zeros 572 [4, 4, 4, 5],
    -- 3537: x398 += einsum("ijka->ikja", v.bbbb.ooov)
    .add 572 (.ein [(54, [0, 1, 2, 3])] [0, 2, 1, 3]) 1 1,
    -- 3538: x398 -= einsum("ijka->kija", v.bbbb.ooov)
    .add 572 (.ein [(54, [0, 1, 2, 3])] [2, 0, 1, 3]) (-1) 1,
    -- 3539: x399 = np.zeros((nocc[1], nocc[1]), dtype=types[float])
    .zeros 573 [4, 4],
    -- 3540: x399 += einsum("ia,ijka->jk", t1.bb, x398)
    .add 573 (.ein [(11, [0, 1]), (572, [0, 2, 3, 1])] [2, 3]) 1 1,
    -- 3541: x400 -= einsum("ij->ij", x399)
    .add 373 (.ein [(573, [0, 1])] [0, 1]) (-1) 1,
    -- 3542: del x399
    .del 573,
    -- 3543: x401 = np.zeros((nocc[1], nocc[1], nvir[1], nvir[1]), dtype=types[float])
    .zeros 574 [4, 4, 5, 5],
    -- 3544: x401 += einsum("ij,abjk->kiab", x400, l2.bbbb)
    .add 574 (.ein [(373, [0, 1]), (33, [2, 3, 1, 4])] [4, 0, 2, 3]) 1 1,
    -- 3545: del x400
    .del 373,
    -- 3546: x415 -= einsum("ijab->ijba", x401)
    .add 235 (.ein [(574, [0, 1, 2, 3])] [0, 1, 3, 2]) (-1) 1,
    -- 3547: del x401
    .del 574,
    -- 3548: x484 = np.zeros((nocc[0], nocc[1], nvir[0], nvir[1]), dtype=types[float])
    .zeros 575 [0, 4, 1, 5],
    -- 3549: x484 += einsum("ijka,kljb->ilab", x1, x398)
    .add 575 (.ein [(79, [0, 1, 2, 3]), (572, [2, 4, 1, 5])] [0, 4, 3, 5]) 1 1,
    -- 3550: del x1
    .del 79,
    -- 3551: del x398
    .del 572,
    -- 3552: l2new_baba -= einsum("ijab->baji", x484)
    .add 92 (.ein [(575, [0, 1, 2, 3])] [3, 2, 1, 0]) (-1) 1,
    -- 3553: l2new_abab -= einsum("ijab->abij", x484)
    .add 93 (.ein [(575, [0, 1, 2, 3])] [2, 3, 0, 1]) (-1) 1,
    -- 3554: del x484
    .del 575,
    -- 3555: x404 = np.zeros((nocc[1], nocc[1], nvir[1], nvir[1]), dtype=types[float])
    .zeros 576 [4, 4, 5, 5],
    -- 3556: x404 -= einsum("iajb->jiab", v.bbbb.ovov)
    .add 576 (.ein [(45, [0, 1, 2, 3])] [2, 0, 1, 3]) (-1) 1,
    -- 3557: x404 += einsum("iajb->jiba", v.bbbb.ovov)
    .add 576 (.ein [(45, [0, 1, 2, 3])] [2, 0, 3, 1]) 1 1,
    -- 3558: x405 = np.zeros((nbos, nocc[1], nvir[1]), dtype=types[float])
    .zeros 577 [2, 4, 5],
    -- 3559: x405 += einsum("wia,ijba->wjb", u11.bb, x404)
    .add 577 (.ein [(46, [0, 1, 2]), (576, [1, 3, 4, 2])] [0, 3, 4]) 1 1,
    -- 3560: x406 -= einsum("wia->wia", x405)
    .add 518 (.ein [(577, [0, 1, 2])] [0, 1, 2]) (-1) 1,
    -- 3561: x407 = np.zeros((nocc[1], nocc[1], nvir[1], nvir[1]), dtype=types[float])
    .zeros 578 [4, 4, 5, 5],
    -- 3562: x407 += einsum("wai,wjb->ijab", lu11.bb, x406)
    .add 578 (.ein [(60, [0, 1, 2]), (518, [0, 3, 4])] [2, 3, 1, 4]) 1 1,
    -- 3563: del x406
    .del 518,
    -- 3564: x415 += einsum("ijab->ijab", x407)
    .add 235 (.ein [(578, [0, 1, 2, 3])] [0, 1, 2, 3]) 1 1,
    -- 3565: del x407
    .del 578,
    -- 3566: x504 -= einsum("wia->wia", x405)
    .add 516 (.ein [(577, [0, 1, 2])] [0, 1, 2]) (-1) 1,
    -- 3567: del x405
    .del 577,
    -- 3568: x413 = np.zeros((nocc[1], nvir[1]), dtype=types[float])
    .zeros 579 [4, 5],
    -- 3569: x413 += einsum("ia,ijba->jb", t1.bb, x404)
    .add 579 (.ein [(11, [0, 1]), (576, [0, 2, 3, 1])] [2, 3]) 1 1,
    -- 3570: del x404
    .del 576,
    -- 3571: x414 -= einsum("ia->ia", x413)
    .add 287 (.ein [(579, [0, 1])] [0, 1]) (-1) 1,
    -- 3572: x415 += einsum("ai,jb->ijab", l1.bb, x414)
    .add 235 (.ein [(39, [0, 1]), (287, [2, 3])] [1, 2, 0, 3]) 1 1,
    -- 3573: del x414
    .del 287,
    -- 3574: x513 -= einsum("ia->ia", x413)
    .add 284 (.ein [(579, [0, 1])] [0, 1]) (-1) 1,
    -- 3575: del x413
    .del 579,
    -- 3576: x411 -= einsum("ijka->jika", v.bbbb.ooov)
    .add 357 (.ein [(54, [0, 1, 2, 3])] [1, 0, 2, 3]) (-1) 1,
    -- 3577: x412 = np.zeros((nocc[1], nocc[1], nvir[1], nvir[1]), dtype=types[float])
    .zeros 580 [4, 4, 5, 5],
    -- 3578: x412 += einsum("ai,ijkb->jkab", l1.bb, x411)
    .add 580 (.ein [(39, [0, 1]), (357, [1, 2, 3, 4])] [2, 3, 0, 4]) 1 1,
    -- 3579: del x411
    .del 357,
    -- 3580: x415 += einsum("ijab->ijab", x412)
    .add 235 (.ein [(580, [0, 1, 2, 3])] [0, 1, 2, 3]) 1 1,
    -- 3581: del x412
    .del 580,
    -- 3582: l2new_bbbb += einsum("ijab->abij", x415)
    .add 507 (.ein [(235, [0, 1, 2, 3])] [2, 3, 0, 1]) 1 1,
    -- 3583: l2new_bbbb -= einsum("ijab->baij", x415)
    .add 507 (.ein [(235, [0, 1, 2, 3])] [3, 2, 0, 1]) (-1) 1,
    -- 3584: l2new_bbbb -= einsum("ijab->abji", x415)
    .add 507 (.ein [(235, [0, 1, 2, 3])] [2, 3, 1, 0]) (-1) 1,
    -- 3585: l2new_bbbb += einsum("ijab->baji", x415)
    .add 507 (.ein [(235, [0, 1, 2, 3])] [3, 2, 1, 0]) 1 1,
    -- 3586: del x415
    .del 235,
    -- 3587: x431 = np.zeros((nvir[1], nvir[1]), dtype=types[float])
    .zeros 581 [5, 5],
    -- 3588: x431 += einsum("ijab,iajc->bc", t2.abab, v.aabb.ovov)
    .add 581 (.ein [(9, [0, 1, 2, 3]), (17, [0, 2, 1, 4])] [3, 4]) 1 1,
    -- 3589: x433 += einsum("ab->ab", x431)
    .add 380 (.ein [(581, [0, 1])] [0, 1]) 1 1,
    -- 3590: x434 = np.zeros((nocc[1], nocc[1], nvir[1], nvir[1]), dtype=types[float])
    .zeros 582 [4, 4, 5, 5],
    -- 3591: x434 += einsum("ab,acij->ijcb", x433, l2.bbbb)
    .add 582 (.ein [(380, [0, 1]), (33, [0, 2, 3, 4])] [3, 4, 2, 1]) 1 1,
    -- 3592: del x433
    .del 380,
    -- 3593: x439 += einsum("ijab->jiab", x434)
    .add 376 (.ein [(582, [0, 1, 2, 3])] [1, 0, 2, 3]) 1 1,
    -- 3594: del x434
    .del 582,
    -- 3595: l2new_bbbb += einsum("ijab->abij", x439) * -1
    .add 507 (.ein [(376, [0, 1, 2, 3])] [2, 3, 0, 1]) (-1) 1,
    -- 3596: l2new_bbbb += einsum("ijab->baij", x439)
    .add 507 (.ein [(376, [0, 1, 2, 3])] [3, 2, 0, 1]) 1 1,
    -- 3597: l2new_bbbb += einsum("ijab->abji", x439)
    .add 507 (.ein [(376, [0, 1, 2, 3])] [2, 3, 1, 0]) 1 1,
    -- 3598: l2new_bbbb += einsum("ijab->baji", x439) * -1
    .add 507 (.ein [(376, [0, 1, 2, 3])] [3, 2, 1, 0]) (-1) 1,
    -- 3599: del x439
    .del 376,
    -- 3600: x490 += einsum("ab->ab", x431) * -1
    .add 300 (.ein [(581, [0, 1])] [0, 1]) (-1) 1,
    -- 3601: del x431
    .del 581,
    -- 3602: x440 = np.zeros((nocc[1], nocc[1], nvir[1], nvir[1]), dtype=types[float])
    .zeros 583 [4, 4, 5, 5],
    -- 3603: x440 += einsum("abij,kjli->klba", l2.bbbb, v.bbbb.oooo)
    .add 583 (.ein [(33, [0, 1, 2, 3]), (63, [4, 3, 5, 2])] [4, 5, 1, 0]) 1 1,
    -- 3604: x442 = np.zeros((nocc[1], nocc[1], nvir[1], nvir[1]), dtype=types[float])
    .zeros 584 [4, 4, 5, 5],
    -- 3605: x442 += einsum("ijab->jiba", x440)
    .add 584 (.ein [(583, [0, 1, 2, 3])] [1, 0, 3, 2]) 1 1,
    -- 3606: del x440
    .del 583,
    -- 3607: x441 = np.zeros((nocc[1], nocc[1], nvir[1], nvir[1]), dtype=types[float])
    .zeros 585 [4, 4, 5, 5],
    -- 3608: x441 += einsum("abij,bcad->ijdc", l2.bbbb, v.bbbb.vvvv)
    .add 585 (.ein [(33, [0, 1, 2, 3]), (65, [1, 4, 0, 5])] [2, 3, 5, 4]) 1 1,
    -- 3609: x442 += einsum("ijab->jiba", x441)
    .add 584 (.ein [(585, [0, 1, 2, 3])] [1, 0, 3, 2]) 1 1,
    -- 3610: del x441
    .del 585,
    -- 3611: l2new_bbbb += einsum("ijab->baij", x442) * -1
    .add 507 (.ein [(584, [0, 1, 2, 3])] [3, 2, 0, 1]) (-1) 1,
    -- 3612: l2new_bbbb += einsum("ijab->abij", x442)
    .add 507 (.ein [(584, [0, 1, 2, 3])] [2, 3, 0, 1]) 1 1,
    -- 3613: del x442
    .del 584,
    -- 3614: x443 = np.zeros((nocc[0], nocc[1], nvir[0], nvir[1]), dtype=types[float])
    .zeros 586 [0, 4, 1, 5],
    -- 3615: x443 += einsum("ai,jbac->ijcb", l1.aa, v.bbaa.ovvv)
    .add 586 (.ein [(18, [0, 1]), (15, [2, 3, 0, 4])] [1, 2, 4, 3]) 1 1,
    -- 3616: l2new_baba += einsum("ijab->baji", x443)
    .add 92 (.ein [(586, [0, 1, 2, 3])] [3, 2, 1, 0]) 1 1,
    -- 3617: l2new_abab += einsum("ijab->abij", x443)
    .add 93 (.ein [(586, [0, 1, 2, 3])] [2, 3, 0, 1]) 1 1,
    -- 3618: del x443
    .del 586,
    -- 3619: x445 = np.zeros((nocc[0], nocc[1], nvir[0], nvir[1]), dtype=types[float])
    .zeros 587 [0, 4, 1, 5],
    -- 3620: x445 += einsum("abij,acbd->ijcd", l2.abab, v.aabb.vvvv)
    .add 587 (.ein [(8, [0, 1, 2, 3]), (43, [0, 4, 1, 5])] [2, 3, 4, 5]) 1 1,
    -- 3621: l2new_baba += einsum("ijab->baji", x445)
    .add 92 (.ein [(587, [0, 1, 2, 3])] [3, 2, 1, 0]) 1 1,
    -- 3622: l2new_abab += einsum("ijab->abij", x445)
    .add 93 (.ein [(587, [0, 1, 2, 3])] [2, 3, 0, 1]) 1 1,
    -- 3623: del x445
    .del 587,
    -- 3624: x447 = np.zeros((nocc[0], nocc[1], nvir[0], nvir[1]), dtype=types[float])
    .zeros 588 [0, 4, 1, 5],
    -- 3625: x447 += einsum("ai,jbac->jibc", l1.bb, v.aabb.ovvv)
    .add 588 (.ein [(39, [0, 1]), (10, [2, 3, 0, 4])] [2, 1, 3, 4]) 1 1,
    -- 3626: l2new_baba += einsum("ijab->baji", x447)
    .add 92 (.ein [(588, [0, 1, 2, 3])] [3, 2, 1, 0]) 1 1,
    -- 3627: l2new_abab += einsum("ijab->abij", x447)
    .add 93 (.ein [(588, [0, 1, 2, 3])] [2, 3, 0, 1]) 1 1,
    -- 3628: del x447
    .del 588,
    -- 3629: x450 += einsum("iabj->jiba", v.bbaa.ovvo)
    .add 153 (.ein [(44, [0, 1, 2, 3])] [3, 0, 2, 1]) 1 1,
    -- 3630: x451 = np.zeros((nocc[0], nocc[1], nvir[0], nvir[1]), dtype=types[float])
    .zeros 589 [0, 4, 1, 5],
    -- 3631: x451 += einsum("ijab,ikbc->jkac", x207, x450)
    .add 589 (.ein [(460, [0, 1, 2, 3]), (153, [0, 4, 3, 5])] [1, 4, 2, 5]) 1 1,
    -- 3632: del x450
    .del 153,
    -- 3633: del x207
    .del 460,
    -- 3634: l2new_baba += einsum("ijab->baji", x451) * -1
    .add 92 (.ein [(589, [0, 1, 2, 3])] [3, 2, 1, 0]) (-1) 1,
    -- 3635: l2new_abab += einsum("ijab->abij", x451) * -1
    .add 93 (.ein [(589, [0, 1, 2, 3])] [2, 3, 0, 1]) (-1) 1,
    -- 3636: del x451
    .del 589,
    -- 3637: x452 = np.zeros((nocc[1], nocc[1], nvir[1], nvir[1]), dtype=types[float])
    .zeros 590 [4, 4, 5, 5],
    -- 3638: x452 += einsum("abij->jiab", l2.bbbb)
    .add 590 (.ein [(33, [0, 1, 2, 3])] [3, 2, 0, 1]) 1 1,
    -- 3639: x452 -= einsum("abij->jiba", l2.bbbb)
    .add 590 (.ein [(33, [0, 1, 2, 3])] [3, 2, 1, 0]) (-1) 1,
    -- 3640: x455 += einsum("iabj->ijab", v.aabb.ovvo)
    .add 126 (.ein [(36, [0, 1, 2, 3])] [0, 3, 1, 2]) 1 1,
    -- 3641: l2new_baba += einsum("ijab,kicb->acjk", x452, x455)
    .add 92 (.ein [(590, [0, 1, 2, 3]), (126, [4, 0, 5, 3])] [2, 5, 1, 4]) 1 1,
    -- 3642: del x452
    .del 590,
    -- 3643: l2new_abab += einsum("ijab,kicb->cakj", x252, x455) * -1
    .add 93 (.ein [(489, [0, 1, 2, 3]), (126, [4, 0, 5, 3])] [5, 2, 4, 1]) (-1) 1,
    -- 3644: del x252
    .del 489,
    -- 3645: del x455
    .del 126,
    -- 3646: x456 = np.zeros((nocc[0], nocc[0], nvir[0], nvir[0]), dtype=types[float])
    .zeros 591 [0, 0, 1, 1],
    -- 3647: x456 += einsum("iajb->jiab", v.aaaa.ovov)
    .add 591 (.ein [(24, [0, 1, 2, 3])] [2, 0, 1, 3]) 1 1,
    -- 3648: x456 += einsum("iajb->jiba", v.aaaa.ovov) * -1
    .add 591 (.ein [(24, [0, 1, 2, 3])] [2, 0, 3, 1]) (-1) 1,
    -- 3649: x457 = np.zeros((nocc[0], nocc[0], nvir[0], nvir[0]), dtype=types[float])
    .zeros 592 [0, 0, 1, 1],
    -- 3650: x457 += einsum("ijab,ikca->jkbc", x24, x456)
    .add 592 (.ein [(142, [0, 1, 2, 3]), (591, [0, 4, 5, 2])] [1, 4, 3, 5]) 1 1,
    -- 3651: del x24
    .del 142,
    -- 3652: del x456
    .del 591,
    -- 3653: x459 += einsum("ijab->jiab", x457)
    .add 228 (.ein [(592, [0, 1, 2, 3])] [1, 0, 2, 3]) 1 1,
    -- 3654: del x457
    .del 592,
    -- 3655: x459 += einsum("iabj->ijba", v.aaaa.ovvo)
    .add 228 (.ein [(28, [0, 1, 2, 3])] [0, 3, 2, 1]) 1 1,
    -- 3656: x459 += einsum("ijab->ijab", v.aaaa.oovv) * -1
    .add 228 (.ein [(29, [0, 1, 2, 3])] [0, 1, 2, 3]) (-1) 1,
    -- 3657: x460 = np.zeros((nocc[0], nocc[1], nvir[0], nvir[1]), dtype=types[float])
    .zeros 593 [0, 4, 1, 5],
    -- 3658: x460 += einsum("abij,kiac->kjcb", l2.abab, x459)
    .add 593 (.ein [(8, [0, 1, 2, 3]), (228, [4, 2, 0, 5])] [4, 3, 5, 1]) 1 1,
    -- 3659: del x459
    .del 228,
    -- 3660: l2new_baba += einsum("ijab->baji", x460)
    .add 92 (.ein [(593, [0, 1, 2, 3])] [3, 2, 1, 0]) 1 1,
    -- 3661: l2new_abab += einsum("ijab->abij", x460)
    .add 93 (.ein [(593, [0, 1, 2, 3])] [2, 3, 0, 1]) 1 1,
    -- 3662: del x460
    .del 593,
    -- 3663: x461 = np.zeros((nocc[1], nocc[1], nvir[1], nvir[1]), dtype=types[float])
    .zeros 594 [4, 4, 5, 5],
    -- 3664: x461 += einsum("ijab,iakc->jkbc", t2.abab, v.aabb.ovov)
    .add 594 (.ein [(9, [0, 1, 2, 3]), (17, [0, 2, 4, 5])] [1, 4, 3, 5]) 1 1,
    -- 3665: x464 += einsum("ijab->jiab", x461)
    .add 382 (.ein [(594, [0, 1, 2, 3])] [1, 0, 2, 3]) 1 1,
    -- 3666: del x461
    .del 594,
    -- 3667: x464 += einsum("iabj->ijba", v.bbbb.ovvo)
    .add 382 (.ein [(55, [0, 1, 2, 3])] [0, 3, 2, 1]) 1 1,
    -- 3668: x464 += einsum("ijab->ijab", v.bbbb.oovv) * -1
    .add 382 (.ein [(56, [0, 1, 2, 3])] [0, 1, 2, 3]) (-1) 1,
    -- 3669: x465 = np.zeros((nocc[0], nocc[1], nvir[0], nvir[1]), dtype=types[float])
    .zeros 595 [0, 4, 1, 5],
    -- 3670: x465 += einsum("abij,kjbc->ikac", l2.abab, x464)
    .add 595 (.ein [(8, [0, 1, 2, 3]), (382, [4, 3, 1, 5])] [2, 4, 0, 5]) 1 1,
    -- 3671: del x464
    .del 382,
    -- 3672: l2new_baba += einsum("ijab->baji", x465)
    .add 92 (.ein [(595, [0, 1, 2, 3])] [3, 2, 1, 0]) 1 1,
    -- 3673: l2new_abab += einsum("ijab->abij", x465)
    .add 93 (.ein [(595, [0, 1, 2, 3])] [2, 3, 0, 1]) 1 1,
    -- 3674: del x465
    .del 595,
    -- 3675: x466 = np.zeros((nocc[0], nocc[0], nvir[1], nvir[1]), dtype=types[float])
    .zeros 596 [0, 0, 5, 5],
    -- 3676: x466 += einsum("ia,jabc->ijbc", t1.aa, v.aabb.ovvv)
    .add 596 (.ein [(12, [0, 1]), (10, [2, 1, 3, 4])] [0, 2, 3, 4]) 1 1,
    -- 3677: x468 = np.zeros((nocc[0], nocc[0], nvir[1], nvir[1]), dtype=types[float])
    .zeros 597 [0, 0, 5, 5],
    -- 3678: x468 += einsum("ijab->jiab", x466)
    .add 597 (.ein [(596, [0, 1, 2, 3])] [1, 0, 2, 3]) 1 1,
    -- 3679: del x466
    .del 596,
    -- 3680: x467 = np.zeros((nocc[0], nocc[0], nvir[1], nvir[1]), dtype=types[float])
    .zeros 598 [0, 0, 5, 5],
    -- 3681: x467 += einsum("ijab,kajc->ikbc", t2.abab, v.aabb.ovov)
    .add 598 (.ein [(9, [0, 1, 2, 3]), (17, [4, 2, 1, 5])] [0, 4, 3, 5]) 1 1,
    -- 3682: x468 += einsum("ijab->jiab", x467) * -1
    .add 597 (.ein [(598, [0, 1, 2, 3])] [1, 0, 2, 3]) (-1) 1,
    -- 3683: del x467
    .del 598,
    -- 3684: x468 += einsum("ijab->ijab", v.aabb.oovv)
    .add 597 (.ein [(38, [0, 1, 2, 3])] [0, 1, 2, 3]) 1 1,
    -- 3685: x469 = np.zeros((nocc[0], nocc[1], nvir[0], nvir[1]), dtype=types[float])
    .zeros 599 [0, 4, 1, 5],
    -- 3686: x469 += einsum("abij,kibc->kjac", l2.abab, x468)
    .add 599 (.ein [(8, [0, 1, 2, 3]), (597, [4, 2, 1, 5])] [4, 3, 0, 5]) 1 1,
    -- 3687: del x468
    .del 597,
    -- 3688: l2new_baba += einsum("ijab->baji", x469) * -1
    .add 92 (.ein [(599, [0, 1, 2, 3])] [3, 2, 1, 0]) (-1) 1,
    -- 3689: l2new_abab += einsum("ijab->abij", x469) * -1
    .add 93 (.ein [(599, [0, 1, 2, 3])] [2, 3, 0, 1]) (-1) 1,
    -- 3690: del x469
    .del 599,
    -- 3691: x470 = np.zeros((nocc[1], nocc[1], nvir[0], nvir[0]), dtype=types[float])
    .zeros 600 [4, 4, 1, 1],
    -- 3692: x470 += einsum("ijab,ickb->jkac", t2.abab, v.aabb.ovov)
    .add 600 (.ein [(9, [0, 1, 2, 3]), (17, [0, 4, 5, 3])] [1, 5, 2, 4]) 1 1,
    -- 3693: x471 += einsum("ijab->jiab", x470) * -1
    .add 486 (.ein [(600, [0, 1, 2, 3])] [1, 0, 2, 3]) (-1) 1,
    -- 3694: del x470
    .del 600,
    -- 3695: x471 += einsum("ijab->ijab", v.bbaa.oovv)
    .add 486 (.ein [(16, [0, 1, 2, 3])] [0, 1, 2, 3]) 1 1,
    -- 3696: x472 = np.zeros((nocc[0], nocc[1], nvir[0], nvir[1]), dtype=types[float])
    .zeros 601 [0, 4, 1, 5],
    -- 3697: x472 += einsum("abij,kjac->ikcb", l2.abab, x471)
    .add 601 (.ein [(8, [0, 1, 2, 3]), (486, [4, 3, 0, 5])] [2, 4, 5, 1]) 1 1,
    -- 3698: del x471
    .del 486,
    -- 3699: l2new_baba += einsum("ijab->baji", x472) * -1
    .add 92 (.ein [(601, [0, 1, 2, 3])] [3, 2, 1, 0]) (-1) 1,
    -- 3700: l2new_abab += einsum("ijab->abij", x472) * -1
    .add 93 (.ein [(601, [0, 1, 2, 3])] [2, 3, 0, 1]) (-1) 1,
    -- 3701: del x472
    .del 601,
    -- 3702: x474 += einsum("ijkl->ijkl", v.aabb.oooo)
    .add 191 (.ein [(35, [0, 1, 2, 3])] [0, 1, 2, 3]) 1 1,
    -- 3703: x475 = np.zeros((nocc[0], nocc[1], nvir[0], nvir[1]), dtype=types[float])
    .zeros 602 [0, 4, 1, 5],
    -- 3704: x475 += einsum("abij,kilj->klab", l2.abab, x474)
    .add 602 (.ein [(8, [0, 1, 2, 3]), (191, [4, 2, 5, 3])] [4, 5, 0, 1]) 1 1,
    -- 3705: del x474
    .del 191,
    -- 3706: l2new_baba += einsum("ijab->baji", x475)
    .add 92 (.ein [(602, [0, 1, 2, 3])] [3, 2, 1, 0]) 1 1,
    -- 3707: l2new_abab += einsum("ijab->abij", x475)
    .add 93 (.ein [(602, [0, 1, 2, 3])] [2, 3, 0, 1]) 1 1,
    -- 3708: del x475
    .del 602,
    -- 3709: x487 += einsum("ab->ab", f.aa.vv)
    .add 225 (.ein [(49, [0, 1])] [0, 1]) 1 1,
    -- 3710: x488 = np.zeros((nocc[0], nocc[1], nvir[0], nvir[1]), dtype=types[float])
    .zeros 603 [0, 4, 1, 5],
    -- 3711: x488 += einsum("ab,acij->ijbc", x487, l2.abab)
    .add 603 (.ein [(225, [0, 1]), (8, [0, 2, 3, 4])] [3, 4, 1, 2]) 1 1,
    -- 3712: del x487
    .del 225,
    -- 3713: l2new_baba += einsum("ijab->baji", x488)
    .add 92 (.ein [(603, [0, 1, 2, 3])] [3, 2, 1, 0]) 1 1,
    -- 3714: l2new_abab += einsum("ijab->abij", x488)
    .add 93 (.ein [(603, [0, 1, 2, 3])] [2, 3, 0, 1]) 1 1,
    -- 3715: del x488
    .del 603,
    -- 3716: x490 += einsum("ab->ab", f.bb.vv)
    .add 300 (.ein [(58, [0, 1])] [0, 1]) 1 1,
    -- 3717: x491 = np.zeros((nocc[0], nocc[1], nvir[0], nvir[1]), dtype=types[float])
    .zeros 604 [0, 4, 1, 5],
    -- 3718: x491 += einsum("ab,caij->ijcb", x490, l2.abab)
    .add 604 (.ein [(300, [0, 1]), (8, [2, 0, 3, 4])] [3, 4, 2, 1]) 1 1,
    -- 3719: del x490
    .del 300,
    -- 3720: l2new_baba += einsum("ijab->baji", x491)
    .add 92 (.ein [(604, [0, 1, 2, 3])] [3, 2, 1, 0]) 1 1,
    -- 3721: l2new_abab += einsum("ijab->abij", x491)
    .add 93 (.ein [(604, [0, 1, 2, 3])] [2, 3, 0, 1]) 1 1,
    -- 3722: del x491
    .del 604,
    -- 3723: x502 += einsum("wia->wia", gc.aa.bov)
    .add 261 (.ein [(70, [0, 1, 2])] [0, 1, 2]) 1 1,
    -- 3724: x503 = np.zeros((nocc[0], nocc[1], nvir[0], nvir[1]), dtype=types[float])
    .zeros 605 [0, 4, 1, 5],
    -- 3725: x503 += einsum("wai,wjb->jiba", lu11.bb, x502)
    .add 605 (.ein [(60, [0, 1, 2]), (261, [0, 3, 4])] [3, 2, 4, 1]) 1 1,
    -- 3726: del x502
    .del 261,
    -- 3727: l2new_baba += einsum("ijab->baji", x503)
    .add 92 (.ein [(605, [0, 1, 2, 3])] [3, 2, 1, 0]) 1 1,
    -- 3728: l2new_abab += einsum("ijab->abij", x503)
    .add 93 (.ein [(605, [0, 1, 2, 3])] [2, 3, 0, 1]) 1 1,
    -- 3729: del x503
    .del 605,
    -- 3730: x504 += einsum("wia->wia", gc.bb.bov)
    .add 516 (.ein [(74, [0, 1, 2])] [0, 1, 2]) 1 1,
    -- 3731: x505 = np.zeros((nocc[0], nocc[1], nvir[0], nvir[1]), dtype=types[float])
    .zeros 606 [0, 4, 1, 5],
    -- 3732: x505 += einsum("wai,wjb->ijab", lu11.aa, x504)
    .add 606 (.ein [(53, [0, 1, 2]), (516, [0, 3, 4])] [2, 3, 1, 4]) 1 1,
    -- 3733: del x504
    .del 516,
    -- 3734: l2new_baba += einsum("ijab->baji", x505)
    .add 92 (.ein [(606, [0, 1, 2, 3])] [3, 2, 1, 0]) 1 1,
    -- 3735: l2new_abab += einsum("ijab->abij", x505)
    .add 93 (.ein [(606, [0, 1, 2, 3])] [2, 3, 0, 1]) 1 1,
    -- 3736: del x505
    .del 606,
    -- 3737: x508 += einsum("ijka->ijka", v.aabb.ooov)
    .add 156 (.ein [(14, [0, 1, 2, 3])] [0, 1, 2, 3]) 1 1,
    -- 3738: x509 = np.zeros((nocc[0], nocc[1], nvir[0], nvir[1]), dtype=types[float])
    .zeros 607 [0, 4, 1, 5],
    -- 3739: x509 += einsum("ai,jikb->jkab", l1.aa, x508)
    .add 607 (.ein [(18, [0, 1]), (156, [2, 1, 3, 4])] [2, 3, 0, 4]) 1 1,
    -- 3740: del x508
    .del 156,
    -- 3741: l2new_baba -= einsum("ijab->baji", x509)
    .add 92 (.ein [(607, [0, 1, 2, 3])] [3, 2, 1, 0]) (-1) 1,
    -- 3742: l2new_abab -= einsum("ijab->abij", x509)
    .add 93 (.ein [(607, [0, 1, 2, 3])] [2, 3, 0, 1]) (-1) 1,
    -- 3743: del x509
    .del 607,
    -- 3744: x510 += einsum("iajk->ijka", v.aabb.ovoo)
    .add 185 (.ein [(13, [0, 1, 2, 3])] [0, 2, 3, 1]) 1 1,
    -- 3745: x511 = np.zeros((nocc[0], nocc[1], nvir[0], nvir[1]), dtype=types[float])
    .zeros 608 [0, 4, 1, 5],
    -- 3746: x511 += einsum("ai,jkib->jkba", l1.bb, x510)
    .add 608 (.ein [(39, [0, 1]), (185, [2, 3, 1, 4])] [2, 3, 4, 0]) 1 1,
    -- 3747: del x510
    .del 185,
    -- 3748: l2new_baba -= einsum("ijab->baji", x511)
    .add 92 (.ein [(608, [0, 1, 2, 3])] [3, 2, 1, 0]) (-1) 1,
    -- 3749: l2new_abab -= einsum("ijab->abij", x511)
    .add 93 (.ein [(608, [0, 1, 2, 3])] [2, 3, 0, 1]) (-1) 1,
    -- 3750: del x511
    .del 608,
    -- 3751: x512 += einsum("ia->ia", f.aa.ov)
    .add 105 (.ein [(20, [0, 1])] [0, 1]) 1 1,
    -- 3752: x516 += einsum("ia,wia->w", x512, u11.aa)
    .add 463 (.ein [(105, [0, 1]), (25, [2, 0, 1])] [2]) 1 1,
    -- 3753: l2new_baba += einsum("ai,jb->abij", l1.bb, x512)
    .add 92 (.ein [(39, [0, 1]), (105, [2, 3])] [0, 3, 1, 2]) 1 1,
    -- 3754: l2new_abab += einsum("ai,jb->baji", l1.bb, x512)
    .add 93 (.ein [(39, [0, 1]), (105, [2, 3])] [3, 0, 2, 1]) 1 1,
    -- 3755: del x512
    .del 105,
    -- 3756: x513 += einsum("ia->ia", f.bb.ov)
    .add 284 (.ein [(47, [0, 1])] [0, 1]) 1 1,
    -- 3757: x516 += einsum("ia,wia->w", x513, u11.bb)
    .add 463 (.ein [(284, [0, 1]), (46, [2, 0, 1])] [2]) 1 1,
    -- 3758: l2new_baba += einsum("ai,jb->baji", l1.aa, x513)
    .add 92 (.ein [(18, [0, 1]), (284, [2, 3])] [3, 0, 2, 1]) 1 1,
    -- 3759: l2new_abab += einsum("ai,jb->abij", l1.aa, x513)
    .add 93 (.ein [(18, [0, 1]), (284, [2, 3])] [0, 3, 1, 2]) 1 1,
    -- 3760: del x513
    .del 284,
    -- 3761: x515 += einsum("w->w", G)
    .add 334 (.ein [(50, [0])] [0]) 1 1,
    -- 3762: x516 += einsum("w,wx->x", x515, s2)
    .add 463 (.ein [(334, [0]), (51, [0, 1])] [1]) 1 1,
    -- 3763: x536 = np.zeros((nbos, nbos), dtype=types[float])
    .zeros 609 [2, 2],
    -- 3764: x536 += einsum("w,x->xw", ls1, x515)
    .add 609 (.ein [(34, [0]), (334, [1])] [1, 0]) 1 1,
    -- 3765: del x515
    .del 334,
    -- 3766: x516 += einsum("w->w", G)
    .add 463 (.ein [(50, [0])] [0]) 1 1,
    -- 3767: ls1new += einsum("w,wx->x", x516, ls2)
    .add 339 (.ein [(463, [0]), (68, [0, 1])] [1]) 1 1,
    -- 3768: del x516
    .del 463,
    -- 3769: x517 = np.zeros((nbos, nbos), dtype=types[float])
    .zeros 610 [2, 2],
    -- 3770: x517 += einsum("wx,yx->wy", ls2, w)
    .add 610 (.ein [(68, [0, 1]), (61, [2, 1])] [0, 2]) 1 1,
    -- 3771: x536 += einsum("wx->wx", x517)
    .add 609 (.ein [(610, [0, 1])] [0, 1]) 1 1,
    -- 3772: del x517
    .del 610,
    -- 3773: x518 = np.zeros((nbos, nocc[0], nvir[0]), dtype=types[float])
    .zeros 611 [2, 0, 1],
    -- 3774: x518 += einsum("ia,wba->wib", t1.aa, g.aa.bvv)
    .add 611 (.ein [(12, [0, 1]), (3, [2, 3, 1])] [2, 0, 3]) 1 1,
    -- 3775: x523 += einsum("wia->wia", x518)
    .add 563 (.ein [(611, [0, 1, 2])] [0, 1, 2]) 1 1,
    -- 3776: del x518
    .del 611,
    -- 3777: x519 = np.zeros((nbos, nocc[0], nvir[0]), dtype=types[float])
    .zeros 612 [2, 0, 1],
    -- 3778: x519 += einsum("wia,jiba->wjb", g.bb.bov, t2.abab)
    .add 612 (.ein [(6, [0, 1, 2]), (9, [3, 1, 4, 2])] [0, 3, 4]) 1 1,
    -- 3779: x523 += einsum("wia->wia", x519)
    .add 563 (.ein [(612, [0, 1, 2])] [0, 1, 2]) 1 1,
    -- 3780: del x519
    .del 612,
    -- 3781: x521 += einsum("wij->wij", g.aa.boo)
    .add 311 (.ein [(0, [0, 1, 2])] [0, 1, 2]) 1 1,
    -- 3782: x522 = np.zeros((nbos, nocc[0], nvir[0]), dtype=types[float])
    .zeros 613 [2, 0, 1],
    -- 3783: x522 += einsum("ia,wij->wja", t1.aa, x521)
    .add 613 (.ein [(12, [0, 1]), (311, [2, 0, 3])] [2, 3, 1]) 1 1,
    -- 3784: del x521
    .del 311,
    -- 3785: x523 -= einsum("wia->wia", x522)
    .add 563 (.ein [(613, [0, 1, 2])] [0, 1, 2]) (-1) 1,
    -- 3786: del x522
    .del 613,
    -- 3787: x523 += einsum("wai->wia", g.aa.bvo)
    .add 563 (.ein [(1, [0, 1, 2])] [0, 2, 1]) 1 1,
    -- 3788: x524 = np.zeros((nbos, nbos), dtype=types[float])
    .zeros 614 [2, 2],
    -- 3789: x524 += einsum("wai,xia->wx", lu11.aa, x523)
    .add 614 (.ein [(53, [0, 1, 2]), (563, [3, 2, 1])] [0, 3]) 1 1,
    -- 3790: del x523
    .del 563,
    -- 3791: x536 += einsum("wx->xw", x524)
    .add 609 (.ein [(614, [0, 1])] [1, 0]) 1 1,
    -- 3792: del x524
    .del 614,
    -- 3793: x525 = np.zeros((nbos, nocc[1], nvir[1]), dtype=types[float])
    .zeros 615 [2, 4, 5],
    -- 3794: x525 += einsum("ia,wba->wib", t1.bb, g.bb.bvv)
    .add 615 (.ein [(11, [0, 1]), (7, [2, 3, 1])] [2, 0, 3]) 1 1,
    -- 3795: x530 += einsum("wia->wia", x525)
    .add 537 (.ein [(615, [0, 1, 2])] [0, 1, 2]) 1 1,
    -- 3796: del x525
    .del 615,
    -- 3797: x526 = np.zeros((nbos, nocc[1], nvir[1]), dtype=types[float])
    .zeros 616 [2, 4, 5],
    -- 3798: x526 += einsum("wia,ijab->wjb", g.aa.bov, t2.abab)
    .add 616 (.ein [(2, [0, 1, 2]), (9, [1, 3, 2, 4])] [0, 3, 4]) 1 1,
    -- 3799: x530 += einsum("wia->wia", x526)
    .add 537 (.ein [(616, [0, 1, 2])] [0, 1, 2]) 1 1,
    -- 3800: del x526
    .del 616,
    -- 3801: x528 += einsum("wij->wij", g.bb.boo)
    .add 367 (.ein [(4, [0, 1, 2])] [0, 1, 2]) 1 1,
    -- 3802: x529 = np.zeros((nbos, nocc[1], nvir[1]), dtype=types[float])
    .zeros 617 [2, 4, 5],
    -- 3803: x529 += einsum("ia,wij->wja", t1.bb, x528)
    .add 617 (.ein [(11, [0, 1]), (367, [2, 0, 3])] [2, 3, 1]) 1 1,
    -- 3804: del x528
    .del 367,
    -- 3805: x530 -= einsum("wia->wia", x529)
    .add 537 (.ein [(617, [0, 1, 2])] [0, 1, 2]) (-1) 1,
    -- 3806: del x529
    .del 617,
    -- 3807: x530 += einsum("wai->wia", g.bb.bvo)
    .add 537 (.ein [(5, [0, 1, 2])] [0, 2, 1]) 1 1,
    -- 3808: x531 = np.zeros((nbos, nbos), dtype=types[float])
    .zeros 618 [2, 2],
    -- 3809: x531 += einsum("wai,xia->wx", lu11.bb, x530)
    .add 618 (.ein [(60, [0, 1, 2]), (537, [3, 2, 1])] [0, 3]) 1 1,
    -- 3810: del x530
    .del 537,
    -- 3811: x536 += einsum("wx->xw", x531)
    .add 609 (.ein [(618, [0, 1])] [1, 0]) 1 1,
    -- 3812: del x531
    .del 618,
    -- 3813: x532 = np.zeros((nbos, nbos), dtype=types[float])
    .zeros 619 [2, 2],
    -- 3814: x532 += einsum("wia,xia->wx", g.aa.bov, u11.aa)
    .add 619 (.ein [(2, [0, 1, 2]), (25, [3, 1, 2])] [0, 3]) 1 1,
    -- 3815: x534 = np.zeros((nbos, nbos), dtype=types[float])
    .zeros 620 [2, 2],
    -- 3816: x534 += einsum("wx->wx", x532)
    .add 620 (.ein [(619, [0, 1])] [0, 1]) 1 1,
    -- 3817: del x532
    .del 619,
    -- 3818: x533 = np.zeros((nbos, nbos), dtype=types[float])
    .zeros 621 [2, 2],
    -- 3819: x533 += einsum("wia,xia->wx", g.bb.bov, u11.bb)
    .add 621 (.ein [(6, [0, 1, 2]), (46, [3, 1, 2])] [0, 3]) 1 1,
    -- 3820: x534 += einsum("wx->wx", x533)
    .add 620 (.ein [(621, [0, 1])] [0, 1]) 1 1,
    -- 3821: del x533
    .del 621,
    -- 3822: x535 = np.zeros((nbos, nbos), dtype=types[float])
    .zeros 622 [2, 2],
    -- 3823: x535 += einsum("wx,yw->xy", ls2, x534)
    .add 622 (.ein [(68, [0, 1]), (620, [2, 0])] [1, 2]) 1 1,
    -- 3824: del x534
    .del 620,
    -- 3825: x536 += einsum("wx->xw", x535)
    .add 609 (.ein [(622, [0, 1])] [1, 0]) 1 1,
    -- 3826: del x535
    .del 622,
    -- 3827: ls2new = np.zeros((nbos, nbos), dtype=types[float])
    .zeros 623 [2, 2],
    -- 3828: ls2new += einsum("wx->wx", x536)
    .add 623 (.ein [(609, [0, 1])] [0, 1]) 1 1,
    -- 3829: ls2new += einsum("wx->xw", x536)
    .add 623 (.ein [(609, [0, 1])] [1, 0]) 1 1,
    -- 3830: del x536
    .del 609,
    -- 3831: l1new_aa += einsum("ia->ai", f.aa.ov)
    .add 78 (.ein [(20, [0, 1])] [1, 0]) 1 1,
    -- 3832: l1new_aa += einsum("w,wia->ai", ls1, gc.aa.bov)
    .add 78 (.ein [(34, [0]), (70, [0, 1, 2])] [2, 1]) 1 1,
    -- 3833: l1new_aa += einsum("ai,jbai->bj", l1.bb, v.aabb.ovvo)
    .add 78 (.ein [(39, [0, 1]), (36, [2, 3, 0, 1])] [3, 2]) 1 1,
    -- 3834: l1new_bb += einsum("ai,jbai->bj", l1.aa, v.bbaa.ovvo)
    .add 83 (.ein [(18, [0, 1]), (44, [2, 3, 0, 1])] [3, 2]) 1 1,
    -- 3835: l1new_bb += einsum("ia->ai", f.bb.ov)
    .add 83 (.ein [(47, [0, 1])] [1, 0]) 1 1,
    -- 3836: l1new_bb += einsum("w,wia->ai", ls1, gc.bb.bov)
    .add 83 (.ein [(34, [0]), (74, [0, 1, 2])] [2, 1]) 1 1,
    -- 3837: l2new_aaaa -= einsum("iajb->abji", v.aaaa.ovov)
    .add 272 (.ein [(24, [0, 1, 2, 3])] [1, 3, 2, 0]) (-1) 1,
    -- 3838: l2new_aaaa += einsum("iajb->baji", v.aaaa.ovov)
    .add 272 (.ein [(24, [0, 1, 2, 3])] [3, 1, 2, 0]) 1 1,
    -- 3839: l2new_bbbb -= einsum("iajb->abji", v.bbbb.ovov)
    .add 507 (.ein [(45, [0, 1, 2, 3])] [1, 3, 2, 0]) (-1) 1,
    -- 3840: l2new_bbbb += einsum("iajb->baji", v.bbbb.ovov)
    .add 507 (.ein [(45, [0, 1, 2, 3])] [3, 1, 2, 0]) 1 1,
    -- 3841: l2new_baba += einsum("iajb->baji", v.aabb.ovov)
    .add 92 (.ein [(17, [0, 1, 2, 3])] [3, 1, 2, 0]) 1 1,
    -- 3842: l2new_abab += einsum("iajb->abij", v.aabb.ovov)
    .add 93 (.ein [(17, [0, 1, 2, 3])] [1, 3, 0, 2]) 1 1,
    -- 3843: ls1new += einsum("ai,wai->w", l1.aa, g.aa.bvo)
    .add 339 (.ein [(18, [0, 1]), (1, [2, 0, 1])] [2]) 1 1,
    -- 3844: ls1new += einsum("w->w", G)
    .add 339 (.ein [(50, [0])] [0]) 1 1,
    -- 3845: ls1new += einsum("w,xw->x", ls1, w)
    .add 339 (.ein [(34, [0]), (61, [1, 0])] [1]) 1 1,
    -- 3846: ls1new += einsum("ai,wai->w", l1.bb, g.bb.bvo)
    .add 339 (.ein [(39, [0, 1]), (5, [2, 0, 1])] [2]) 1 1,
    -- 3847: lu11new_aa += einsum("ab,wai->wbi", f.aa.vv, lu11.aa)
    .add 198 (.ein [(49, [0, 1]), (53, [2, 0, 3])] [2, 1, 3]) 1 1,
    -- 3848: lu11new_aa += einsum("ai,wab->wbi", l1.aa, g.aa.bvv)
    .add 198 (.ein [(18, [0, 1]), (3, [2, 0, 3])] [2, 3, 1]) 1 1,
    -- 3849: lu11new_aa += einsum("wx,xia->wai", ls2, gc.aa.bov)
    .add 198 (.ein [(68, [0, 1]), (70, [1, 2, 3])] [0, 3, 2]) 1 1,
    -- 3850: lu11new_aa += einsum("wx,xai->wai", w, lu11.aa)
    .add 198 (.ein [(61, [0, 1]), (53, [1, 2, 3])] [0, 2, 3]) 1 1,
    -- 3851: lu11new_aa -= einsum("ij,waj->wai", f.aa.oo, lu11.aa)
    .add 198 (.ein [(48, [0, 1]), (53, [2, 3, 1])] [2, 3, 0]) (-1) 1,
    -- 3852: lu11new_aa -= einsum("ai,wji->waj", l1.aa, g.aa.boo)
    .add 198 (.ein [(18, [0, 1]), (0, [2, 3, 1])] [2, 0, 3]) (-1) 1,
    -- 3853: lu11new_aa += einsum("wia->wai", g.aa.bov)
    .add 198 (.ein [(2, [0, 1, 2])] [0, 2, 1]) 1 1,
    -- 3854: lu11new_aa += einsum("wai,baji->wbj", g.bb.bvo, l2.abab)
    .add 198 (.ein [(5, [0, 1, 2]), (8, [3, 1, 4, 2])] [0, 3, 4]) 1 1,
    -- 3855: lu11new_aa += einsum("wai,jbai->wbj", lu11.bb, v.aabb.ovvo)
    .add 198 (.ein [(60, [0, 1, 2]), (36, [3, 4, 1, 2])] [0, 4, 3]) 1 1,
    -- 3856: lu11new_bb -= einsum("ij,waj->wai", f.bb.oo, lu11.bb)
    .add 308 (.ein [(57, [0, 1]), (60, [2, 3, 1])] [2, 3, 0]) (-1) 1,
    -- 3857: lu11new_bb -= einsum("ai,wji->waj", l1.bb, g.bb.boo)
    .add 308 (.ein [(39, [0, 1]), (4, [2, 3, 1])] [2, 0, 3]) (-1) 1,
    -- 3858: lu11new_bb += einsum("wx,xia->wai", ls2, gc.bb.bov)
    .add 308 (.ein [(68, [0, 1]), (74, [1, 2, 3])] [0, 3, 2]) 1 1,
    -- 3859: lu11new_bb += einsum("wx,xai->wai", w, lu11.bb)
    .add 308 (.ein [(61, [0, 1]), (60, [1, 2, 3])] [0, 2, 3]) 1 1,
    -- 3860: lu11new_bb += einsum("wia->wai", g.bb.bov)
    .add 308 (.ein [(6, [0, 1, 2])] [0, 2, 1]) 1 1,
    -- 3861: lu11new_bb += einsum("ab,wai->wbi", f.bb.vv, lu11.bb)
    .add 308 (.ein [(58, [0, 1]), (60, [2, 0, 3])] [2, 1, 3]) 1 1,
    -- 3862: lu11new_bb += einsum("ai,wab->wbi", l1.bb, g.bb.bvv)
    .add 308 (.ein [(39, [0, 1]), (7, [2, 0, 3])] [2, 3, 1]) 1 1,
    -- 3863: lu11new_bb += einsum("wai,abij->wbj", g.aa.bvo, l2.abab)
    .add 308 (.ein [(1, [0, 1, 2]), (8, [1, 3, 2, 4])] [0, 3, 4]) 1 1,
    -- 3864: lu11new_bb += einsum("wai,jbai->wbj", lu11.aa, v.bbaa.ovvo)
    .add 308 (.ein [(53, [0, 1, 2]), (44, [3, 4, 1, 2])] [0, 4, 3]) 1 1,
    -- 3866: l1new.aa = l1new_aa
    .set 624 (.cp 78) 1 1,
    -- 3867: l1new.bb = l1new_bb
    .set 625 (.cp 83) 1 1,
    -- 3868: l2new.abab = l2new_abab
    .set 626 (.cp 93) 1 1,
    -- 3869: l2new.baba = l2new_baba
    .set 627 (.cp 92) 1 1,
    -- 3870: l2new.aaaa = l2new_aaaa
    .set 628 (.cp 272) 1 1,
    -- 3871: l2new.bbbb = l2new_bbbb
    .set 629 (.cp 507) 1 1,
    -- 3872: lu11new.aa = lu11new_aa
    .set 630 (.cp 198) 1 1,
    -- 3873: lu11new.bb = lu11new_bb
    .set 631 (.cp 308) 1 1
  ]
  ret := [(chars! "l1new.aa", 624), (chars! "l1new.bb", 625), (chars! "l2new.abab", 626), (chars! "l2new.baba", 627), (chars! "l2new.aaaa", 628), (chars! "l2new.bbbb", 629), (chars! "ls1new", 339), (chars! "ls2new", 623), (chars! "lu11new.aa", 630), (chars! "lu11new.bb", 631)]

end Ebcc.Gen.UCCSD_SD_1_1
