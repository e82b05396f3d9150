import Verif.Model.GenCode
/-!
Functions of `ebcc/codegen/UCC2.py`, written by `tools/gencode.py`.  Comments give the
number and the text of the line of each statement.
-/

set_option maxRecDepth 100000

namespace Ebcc.Gen.UCC2

/-- codegen/UCC2.py:19-59 `energy`. -/
def energy : GenFun where
  args := [chars! "v.aaaa.ovov", chars! "v.bbbb.ovov", chars! "f.aa.ov", chars! "t1.aa", chars! "f.bb.ov", chars! "v.aabb.ovov", chars! "t1.bb", chars! "t2.bbbb", chars! "t2.aaaa", chars! "t2.abab"]
  body := [
    -- 40: tmp2 = np.copy(np.transpose(v.aaaa.ovov, (0, 2, 3, 1)))
    .set 10 (.tr 0 [0, 2, 3, 1]) 1 1,
    -- 41: tmp2 += np.transpose(v.aaaa.ovov, (0, 2, 1, 3)) * -1
    .add 10 (.tr 0 [0, 2, 1, 3]) (-1) 1,
    -- 42: tmp0 = np.copy(np.transpose(v.bbbb.ovov, (0, 2, 3, 1)))
    .set 11 (.tr 1 [0, 2, 3, 1]) 1 1,
    -- 43: tmp0 += np.transpose(v.bbbb.ovov, (0, 2, 1, 3)) * -1
    .add 11 (.tr 1 [0, 2, 1, 3]) (-1) 1,
    -- 44: tmp3 = np.copy(f.aa.ov) * 2
    .set 12 (.cp 2) 2 1,
    -- 45: tmp3 += einsum(tmp2, (0, 1, 2, 3), t1.aa, (0, 2), (1, 3)) * -1
    .add 12 (.ein [(10, [0, 1, 2, 3]), (3, [0, 2])] [1, 3]) (-1) 1,
    -- 46: del tmp2
    .del 10,
    -- 47: tmp1 = np.copy(f.bb.ov)
    .set 13 (.cp 4) 1 1,
    -- 48: tmp1 += einsum(t1.aa, (0, 1), v.aabb.ovov, (0, 1, 2, 3), (2, 3))
    .add 13 (.ein [(3, [0, 1]), (5, [0, 1, 2, 3])] [2, 3]) 1 1,
    -- 49: tmp1 += einsum(tmp0, (0, 1, 2, 3), t1.bb, (0, 2), (1, 3)) * -0.5
    .add 13 (.ein [(11, [0, 1, 2, 3]), (6, [0, 2])] [1, 3]) (-1) 2,
    -- 50: del tmp0
    .del 11,
    -- 51: e_cc = einsum(v.bbbb.ovov, (0, 1, 2, 3), t2.bbbb, (0, 2, 3, 1), ()) * -1
    .set 14 (.ein [(1, [0, 1, 2, 3]), (7, [0, 2, 3, 1])] []) (-1) 1,
    -- 52: e_cc += einsum(v.aaaa.ovov, (0, 1, 2, 3), t2.aaaa, (0, 2, 3, 1), ()) * -1
    .add 14 (.ein [(0, [0, 1, 2, 3]), (8, [0, 2, 3, 1])] []) (-1) 1,
    -- 53: e_cc += einsum(t2.abab, (0, 1, 2, 3), v.aabb.ovov, (0, 2, 1, 3), ())
    .add 14 (.ein [(9, [0, 1, 2, 3]), (5, [0, 2, 1, 3])] []) 1 1,
    -- 54: e_cc += einsum(tmp1, (0, 1), t1.bb, (0, 1), ())
    .add 14 (.ein [(13, [0, 1]), (6, [0, 1])] []) 1 1,
    -- 55: del tmp1
    .del 13,
    -- 56: e_cc += einsum(t1.aa, (0, 1), tmp3, (0, 1), ()) * 0.5
    .add 14 (.ein [(3, [0, 1]), (12, [0, 1])] []) 1 2,
    -- 57: del tmp3
    .del 12
  ]
  ret := [(chars! "e_cc", 14)]

/-- codegen/UCC2.py:61-402 `update_amps`. -/
def update_amps : GenFun where
  args := [chars! "v.bbbb.ovov", chars! "t1.bb", chars! "v.aaaa.ovov", chars! "t1.aa", chars! "v.bbbb.ovvv", chars! "v.bbbb.ooov", chars! "v.aabb.ovov", chars! "v.aaaa.ooov", chars! "v.aaaa.ovvv", chars! "v.bbbb.oooo", chars! "v.bbbb.oovv", chars! "v.bbbb.vvvv", chars! "f.bb.ov", chars! "v.aabb.vvov", chars! "v.aabb.ovvv", chars! "v.aabb.ooov", chars! "v.aabb.ovoo", chars! "f.aa.ov", chars! "v.aaaa.oovv", chars! "v.aaaa.oooo", chars! "v.aaaa.vvvv", chars! "v.bbbb.ovoo", chars! "f.bb.oo", chars! "t2.bbbb", chars! "f.bb.vv", chars! "v.aabb.vvvv", chars! "v.aabb.vvoo", chars! "v.aabb.oooo", chars! "f.aa.vv", chars! "v.aabb.oovv", chars! "f.aa.oo", chars! "t2.aaaa", chars! "t2.abab"]
  body := [
    -- 86: tmp16 = einsum(v.bbbb.ovov, (0, 1, 2, 3), t1.bb, (4, 3), (4, 0, 2, 1))
    .set 33 (.ein [(0, [0, 1, 2, 3]), (1, [4, 3])] [4, 0, 2, 1]) 1 1,
    -- 87: tmp2 = einsum(v.aaaa.ovov, (0, 1, 2, 3), t1.aa, (4, 3), (4, 0, 2, 1))
    .set 34 (.ein [(2, [0, 1, 2, 3]), (3, [4, 3])] [4, 0, 2, 1]) 1 1,
    -- 88: tmp11 = np.copy(np.transpose(v.bbbb.ovov, (0, 2, 3, 1)))
    .set 35 (.tr 0 [0, 2, 3, 1]) 1 1,
    -- 89: tmp11 += np.transpose(v.bbbb.ovov, (0, 2, 1, 3)) * -1
    .add 35 (.tr 0 [0, 2, 1, 3]) (-1) 1,
    -- 90: tmp5 = np.copy(np.transpose(v.aaaa.ovov, (0, 2, 3, 1)))
    .set 36 (.tr 2 [0, 2, 3, 1]) 1 1,
    -- 91: tmp5 += np.transpose(v.aaaa.ovov, (0, 2, 1, 3)) * -1
    .add 36 (.tr 2 [0, 2, 1, 3]) (-1) 1,
    -- 92: tmp78 = einsum(tmp16, (0, 1, 2, 3), t1.bb, (4, 3), (0, 4, 2, 1))
    .set 37 (.ein [(33, [0, 1, 2, 3]), (1, [4, 3])] [0, 4, 2, 1]) 1 1,
    -- 93: tmp72 = einsum(v.bbbb.ovvv, (0, 1, 2, 3), t1.bb, (4, 3), (4, 0, 1, 2))
    .set 38 (.ein [(4, [0, 1, 2, 3]), (1, [4, 3])] [4, 0, 1, 2]) 1 1,
    -- 94: tmp68 = einsum(v.bbbb.ooov, (0, 1, 2, 3), t1.bb, (4, 3), (4, 0, 1, 2))
    .set 39 (.ein [(5, [0, 1, 2, 3]), (1, [4, 3])] [4, 0, 1, 2]) 1 1,
    -- 95: tmp17 = einsum(v.aabb.ovov, (0, 1, 2, 3), t1.bb, (4, 3), (0, 4, 2, 1))
    .set 40 (.ein [(6, [0, 1, 2, 3]), (1, [4, 3])] [0, 4, 2, 1]) 1 1,
    -- 96: tmp39 = einsum(t1.aa, (0, 1), tmp2, (2, 3, 4, 1), (2, 0, 4, 3))
    .set 41 (.ein [(3, [0, 1]), (34, [2, 3, 4, 1])] [2, 0, 4, 3]) 1 1,
    -- 97: tmp33 = einsum(t1.aa, (0, 1), v.aaaa.ooov, (2, 3, 4, 1), (0, 2, 3, 4))
    .set 42 (.ein [(3, [0, 1]), (7, [2, 3, 4, 1])] [0, 2, 3, 4]) 1 1,
    -- 98: tmp36 = einsum(v.aaaa.ovvv, (0, 1, 2, 3), t1.aa, (4, 3), (4, 0, 1, 2))
    .set 43 (.ein [(8, [0, 1, 2, 3]), (3, [4, 3])] [4, 0, 1, 2]) 1 1,
    -- 99: tmp12 = einsum(tmp11, (0, 1, 2, 3), t1.bb, (0, 2), (1, 3))
    .set 44 (.ein [(35, [0, 1, 2, 3]), (1, [0, 2])] [1, 3]) 1 1,
    -- 100: del tmp11
    .del 35,
    -- 101: tmp10 = einsum(t1.aa, (0, 1), v.aabb.ovov, (0, 1, 2, 3), (2, 3))
    .set 45 (.ein [(3, [0, 1]), (6, [0, 1, 2, 3])] [2, 3]) 1 1,
    -- 102: tmp6 = einsum(tmp5, (0, 1, 2, 3), t1.aa, (0, 2), (1, 3))
    .set 46 (.ein [(36, [0, 1, 2, 3]), (3, [0, 2])] [1, 3]) 1 1,
    -- 103: del tmp5
    .del 36,
    -- 104: tmp0 = einsum(v.aabb.ovov, (0, 1, 2, 3), t1.bb, (2, 3), (0, 1))
    .set 47 (.ein [(6, [0, 1, 2, 3]), (1, [2, 3])] [0, 1]) 1 1,
    -- 105: tmp61 = einsum(t1.bb, (0, 1), v.bbbb.oooo, (2, 3, 4, 0), (2, 3, 4, 1))
    .set 48 (.ein [(1, [0, 1]), (9, [2, 3, 4, 0])] [2, 3, 4, 1]) 1 1,
    -- 106: tmp79 = einsum(t1.bb, (0, 1), tmp78, (2, 3, 0, 4), (3, 2, 4, 1))
    .set 49 (.ein [(1, [0, 1]), (37, [2, 3, 0, 4])] [3, 2, 4, 1]) 1 1,
    -- 107: del tmp78
    .del 37,
    -- 108: tmp65 = einsum(v.bbbb.oovv, (0, 1, 2, 3), t1.bb, (4, 3), (4, 0, 1, 2))
    .set 50 (.ein [(10, [0, 1, 2, 3]), (1, [4, 3])] [4, 0, 1, 2]) 1 1,
    -- 109: tmp74 = einsum(t1.bb, (0, 1), v.bbbb.vvvv, (2, 3, 4, 1), (0, 2, 3, 4))
    .set 51 (.ein [(1, [0, 1]), (11, [2, 3, 4, 1])] [0, 2, 3, 4]) 1 1,
    -- 110: tmp76 = einsum(tmp72, (0, 1, 2, 3), t1.bb, (4, 2), (4, 0, 1, 3))
    .set 52 (.ein [(38, [0, 1, 2, 3]), (1, [4, 2])] [4, 0, 1, 3]) 1 1,
    -- 111: tmp47 = einsum(t1.bb, (0, 1), f.bb.ov, (0, 2), (2, 1))
    .set 53 (.ein [(1, [0, 1]), (12, [0, 2])] [2, 1]) 1 1,
    -- 112: tmp69 = einsum(tmp68, (0, 1, 2, 3), t1.bb, (3, 4), (0, 2, 1, 4))
    .set 54 (.ein [(39, [0, 1, 2, 3]), (1, [3, 4])] [0, 2, 1, 4]) 1 1,
    -- 113: del tmp68
    .del 39,
    -- 114: tmp51 = einsum(t1.bb, (0, 1), f.bb.ov, (2, 1), (2, 0))
    .set 55 (.ein [(1, [0, 1]), (12, [2, 1])] [2, 0]) 1 1,
    -- 115: tmp56 = einsum(v.aabb.vvov, (0, 1, 2, 3), t1.bb, (4, 3), (4, 2, 0, 1))
    .set 56 (.ein [(13, [0, 1, 2, 3]), (1, [4, 3])] [4, 2, 0, 1]) 1 1,
    -- 116: tmp57 = einsum(t1.aa, (0, 1), tmp17, (2, 3, 4, 1), (0, 2, 3, 4))
    .set 57 (.ein [(3, [0, 1]), (40, [2, 3, 4, 1])] [0, 2, 3, 4]) 1 1,
    -- 117: tmp54 = einsum(v.aabb.ovvv, (0, 1, 2, 3), t1.bb, (4, 3), (0, 4, 1, 2))
    .set 58 (.ein [(14, [0, 1, 2, 3]), (1, [4, 3])] [0, 4, 1, 2]) 1 1,
    -- 118: tmp49 = einsum(v.aabb.ooov, (0, 1, 2, 3), t1.bb, (4, 3), (0, 1, 4, 2))
    .set 59 (.ein [(15, [0, 1, 2, 3]), (1, [4, 3])] [0, 1, 4, 2]) 1 1,
    -- 119: tmp52 = einsum(t1.aa, (0, 1), v.aabb.ovoo, (2, 1, 3, 4), (0, 2, 3, 4))
    .set 60 (.ein [(3, [0, 1]), (16, [2, 1, 3, 4])] [0, 2, 3, 4]) 1 1,
    -- 120: tmp26 = einsum(t1.aa, (0, 1), f.aa.ov, (0, 2), (2, 1))
    .set 61 (.ein [(3, [0, 1]), (17, [0, 2])] [2, 1]) 1 1,
    -- 121: tmp31 = einsum(t1.aa, (0, 1), f.aa.ov, (2, 1), (2, 0))
    .set 62 (.ein [(3, [0, 1]), (17, [2, 1])] [2, 0]) 1 1,
    -- 122: tmp40 = einsum(tmp39, (0, 1, 2, 3), t1.aa, (2, 4), (1, 0, 3, 4))
    .set 63 (.ein [(41, [0, 1, 2, 3]), (3, [2, 4])] [1, 0, 3, 4]) 1 1,
    -- 123: del tmp39
    .del 41,
    -- 124: tmp34 = einsum(tmp33, (0, 1, 2, 3), t1.aa, (3, 4), (0, 2, 1, 4))
    .set 64 (.ein [(42, [0, 1, 2, 3]), (3, [3, 4])] [0, 2, 1, 4]) 1 1,
    -- 125: del tmp33
    .del 42,
    -- 126: tmp29 = einsum(t1.aa, (0, 1), v.aaaa.oovv, (2, 3, 4, 1), (0, 2, 3, 4))
    .set 65 (.ein [(3, [0, 1]), (18, [2, 3, 4, 1])] [0, 2, 3, 4]) 1 1,
    -- 127: tmp23 = einsum(v.aaaa.oooo, (0, 1, 2, 3), t1.aa, (3, 4), (0, 1, 2, 4))
    .set 66 (.ein [(19, [0, 1, 2, 3]), (3, [3, 4])] [0, 1, 2, 4]) 1 1,
    -- 128: tmp44 = einsum(v.aaaa.vvvv, (0, 1, 2, 3), t1.aa, (4, 3), (4, 0, 1, 2))
    .set 67 (.ein [(20, [0, 1, 2, 3]), (3, [4, 3])] [4, 0, 1, 2]) 1 1,
    -- 129: tmp42 = einsum(tmp36, (0, 1, 2, 3), t1.aa, (4, 2), (4, 0, 1, 3))
    .set 68 (.ein [(43, [0, 1, 2, 3]), (3, [4, 2])] [4, 0, 1, 3]) 1 1,
    -- 130: tmp21 = np.copy(v.bbbb.ooov)
    .set 69 (.cp 5) 1 1,
    -- 131: tmp21 += np.transpose(v.bbbb.ovoo, (0, 2, 3, 1)) * -1
    .add 69 (.tr 21 [0, 2, 3, 1]) (-1) 1,
    -- 132: tmp13 = np.copy(f.bb.ov)
    .set 70 (.cp 12) 1 1,
    -- 133: tmp13 += tmp10
    .add 70 (.cp 45) 1 1,
    -- 134: tmp13 += tmp12 * -1
    .add 70 (.cp 44) (-1) 1,
    -- 135: del tmp12
    .del 44,
    -- 136: tmp14 = np.copy(v.aaaa.ooov) * -1
    .set 71 (.cp 7) (-1) 1,
    -- 137: tmp14 += np.transpose(v.aaaa.ooov, (0, 2, 1, 3))
    .add 71 (.tr 7 [0, 2, 1, 3]) 1 1,
    -- 138: tmp7 = np.copy(f.aa.ov)
    .set 72 (.cp 17) 1 1,
    -- 139: tmp7 += tmp0
    .add 72 (.cp 47) 1 1,
    -- 140: tmp7 += tmp6 * -1
    .add 72 (.cp 46) (-1) 1,
    -- 141: del tmp6
    .del 46,
    -- 142: tmp62 = einsum(t1.bb, (0, 1), tmp61, (2, 0, 3, 4), (2, 3, 1, 4))
    .set 73 (.ein [(1, [0, 1]), (48, [2, 0, 3, 4])] [2, 3, 1, 4]) 1 1,
    -- 143: del tmp61
    .del 48,
    -- 144: tmp80 = einsum(tmp79, (0, 1, 2, 3), t1.bb, (2, 4), (0, 1, 4, 3))
    .set 74 (.ein [(49, [0, 1, 2, 3]), (1, [2, 4])] [0, 1, 4, 3]) 1 1,
    -- 145: del tmp79
    .del 49,
    -- 146: tmp63 = einsum(f.bb.oo, (0, 1), t2.bbbb, (2, 1, 3, 4), (0, 2, 3, 4))
    .set 75 (.ein [(22, [0, 1]), (23, [2, 1, 3, 4])] [0, 2, 3, 4]) 1 1,
    -- 147: tmp73 = einsum(t1.bb, (0, 1), v.bbbb.ooov, (2, 0, 3, 4), (2, 3, 1, 4))
    .set 76 (.ein [(1, [0, 1]), (5, [2, 0, 3, 4])] [2, 3, 1, 4]) 1 1,
    -- 148: tmp66 = einsum(t1.bb, (0, 1), tmp65, (2, 3, 0, 4), (2, 3, 1, 4))
    .set 77 (.ein [(1, [0, 1]), (50, [2, 3, 0, 4])] [2, 3, 1, 4]) 1 1,
    -- 149: del tmp65
    .del 50,
    -- 150: tmp75 = einsum(tmp74, (0, 1, 2, 3), t1.bb, (4, 2), (4, 0, 1, 3))
    .set 78 (.ein [(51, [0, 1, 2, 3]), (1, [4, 2])] [4, 0, 1, 3]) 1 1,
    -- 151: del tmp74
    .del 51,
    -- 152: tmp77 = einsum(t1.bb, (0, 1), tmp76, (2, 3, 0, 4), (2, 3, 1, 4))
    .set 79 (.ein [(1, [0, 1]), (52, [2, 3, 0, 4])] [2, 3, 1, 4]) 1 1,
    -- 153: del tmp76
    .del 52,
    -- 154: tmp71 = einsum(tmp16, (0, 1, 2, 3), t1.bb, (2, 4), (0, 1, 4, 3))
    .set 80 (.ein [(33, [0, 1, 2, 3]), (1, [2, 4])] [0, 1, 4, 3]) 1 1,
    -- 155: tmp48 = np.copy(f.bb.vv)
    .set 81 (.cp 24) 1 1,
    -- 156: tmp48 += tmp47 * -1
    .add 81 (.cp 53) (-1) 1,
    -- 157: tmp64 = np.copy(f.bb.vv)
    .set 82 (.cp 24) 1 1,
    -- 158: tmp64 += tmp47 * -1
    .add 82 (.cp 53) (-1) 1,
    -- 159: del tmp47
    .del 53,
    -- 160: tmp70 = einsum(t1.bb, (0, 1), tmp69, (2, 0, 3, 4), (2, 3, 1, 4))
    .set 83 (.ein [(1, [0, 1]), (54, [2, 0, 3, 4])] [2, 3, 1, 4]) 1 1,
    -- 161: del tmp69
    .del 54,
    -- 162: tmp67 = einsum(t2.bbbb, (0, 1, 2, 3), tmp51, (1, 4), (4, 0, 2, 3))
    .set 84 (.ein [(23, [0, 1, 2, 3]), (55, [1, 4])] [4, 0, 2, 3]) 1 1,
    -- 163: tmp58 = einsum(t1.aa, (0, 1), tmp56, (2, 3, 4, 1), (0, 2, 3, 4))
    .set 85 (.ein [(3, [0, 1]), (56, [2, 3, 4, 1])] [0, 2, 3, 4]) 1 1,
    -- 164: del tmp56
    .del 56,
    -- 165: tmp58 += einsum(t1.aa, (0, 1), tmp57, (2, 0, 3, 4), (2, 3, 4, 1)) * -1
    .add 85 (.ein [(3, [0, 1]), (57, [2, 0, 3, 4])] [2, 3, 4, 1]) (-1) 1,
    -- 166: del tmp57
    .del 57,
    -- 167: tmp60 = einsum(t1.aa, (0, 1), tmp54, (2, 3, 1, 4), (0, 2, 3, 4))
    .set 86 (.ein [(3, [0, 1]), (58, [2, 3, 1, 4])] [0, 2, 3, 4]) 1 1,
    -- 168: tmp50 = einsum(tmp49, (0, 1, 2, 3), t1.bb, (3, 4), (1, 0, 2, 4))
    .set 87 (.ein [(59, [0, 1, 2, 3]), (1, [3, 4])] [1, 0, 2, 4]) 1 1,
    -- 169: del tmp49
    .del 59,
    -- 170: tmp55 = np.copy(np.transpose(v.aabb.vvov, (2, 0, 1, 3)))
    .set 88 (.tr 13 [2, 0, 1, 3]) 1 1,
    -- 171: tmp55 += einsum(v.aabb.vvvv, (0, 1, 2, 3), t1.bb, (4, 3), (4, 0, 1, 2))
    .add 88 (.ein [(25, [0, 1, 2, 3]), (1, [4, 3])] [4, 0, 1, 2]) 1 1,
    -- 172: tmp53 = einsum(t1.aa, (0, 1), v.aabb.vvoo, (2, 1, 3, 4), (0, 3, 4, 2))
    .set 89 (.ein [(3, [0, 1]), (26, [2, 1, 3, 4])] [0, 3, 4, 2]) 1 1,
    -- 173: tmp53 += einsum(t1.aa, (0, 1), tmp52, (2, 0, 3, 4), (2, 3, 4, 1)) * -1
    .add 89 (.ein [(3, [0, 1]), (60, [2, 0, 3, 4])] [2, 3, 4, 1]) (-1) 1,
    -- 174: del tmp52
    .del 60,
    -- 175: tmp46 = einsum(v.aabb.oooo, (0, 1, 2, 3), t1.bb, (3, 4), (0, 1, 2, 4))
    .set 90 (.ein [(27, [0, 1, 2, 3]), (1, [3, 4])] [0, 1, 2, 4]) 1 1,
    -- 176: tmp27 = np.copy(f.aa.vv)
    .set 91 (.cp 28) 1 1,
    -- 177: tmp27 += tmp26 * -1
    .add 91 (.cp 61) (-1) 1,
    -- 178: tmp59 = einsum(v.aabb.oovv, (0, 1, 2, 3), t1.bb, (4, 3), (0, 1, 4, 2))
    .set 92 (.ein [(29, [0, 1, 2, 3]), (1, [4, 3])] [0, 1, 4, 2]) 1 1,
    -- 179: tmp1 = einsum(t1.aa, (0, 1), v.aabb.ovov, (2, 1, 3, 4), (0, 2, 3, 4))
    .set 93 (.ein [(3, [0, 1]), (6, [2, 1, 3, 4])] [0, 2, 3, 4]) 1 1,
    -- 180: tmp25 = einsum(f.aa.oo, (0, 1), t2.aaaa, (2, 1, 3, 4), (0, 2, 3, 4))
    .set 94 (.ein [(30, [0, 1]), (31, [2, 1, 3, 4])] [0, 2, 3, 4]) 1 1,
    -- 181: tmp32 = einsum(tmp31, (0, 1), t2.aaaa, (2, 0, 3, 4), (1, 2, 3, 4))
    .set 95 (.ein [(62, [0, 1]), (31, [2, 0, 3, 4])] [1, 2, 3, 4]) 1 1,
    -- 182: tmp41 = einsum(tmp40, (0, 1, 2, 3), t1.aa, (2, 4), (0, 1, 4, 3))
    .set 96 (.ein [(63, [0, 1, 2, 3]), (3, [2, 4])] [0, 1, 4, 3]) 1 1,
    -- 183: del tmp40
    .del 63,
    -- 184: tmp38 = einsum(v.aaaa.ooov, (0, 1, 2, 3), t1.aa, (1, 4), (0, 2, 4, 3))
    .set 97 (.ein [(7, [0, 1, 2, 3]), (3, [1, 4])] [0, 2, 4, 3]) 1 1,
    -- 185: tmp35 = einsum(t1.aa, (0, 1), tmp34, (2, 0, 3, 4), (2, 3, 1, 4))
    .set 98 (.ein [(3, [0, 1]), (64, [2, 0, 3, 4])] [2, 3, 1, 4]) 1 1,
    -- 186: del tmp34
    .del 64,
    -- 187: tmp30 = einsum(tmp29, (0, 1, 2, 3), t1.aa, (2, 4), (0, 1, 4, 3))
    .set 99 (.ein [(65, [0, 1, 2, 3]), (3, [2, 4])] [0, 1, 4, 3]) 1 1,
    -- 188: del tmp29
    .del 65,
    -- 189: tmp37 = einsum(tmp2, (0, 1, 2, 3), t1.aa, (2, 4), (0, 1, 4, 3))
    .set 100 (.ein [(34, [0, 1, 2, 3]), (3, [2, 4])] [0, 1, 4, 3]) 1 1,
    -- 190: tmp28 = np.copy(f.aa.vv)
    .set 101 (.cp 28) 1 1,
    -- 191: tmp28 += tmp26 * -1
    .add 101 (.cp 61) (-1) 1,
    -- 192: del tmp26
    .del 61,
    -- 193: tmp24 = einsum(tmp23, (0, 1, 2, 3), t1.aa, (1, 4), (0, 2, 4, 3))
    .set 102 (.ein [(66, [0, 1, 2, 3]), (3, [1, 4])] [0, 2, 4, 3]) 1 1,
    -- 194: del tmp23
    .del 66,
    -- 195: tmp45 = einsum(tmp44, (0, 1, 2, 3), t1.aa, (4, 2), (4, 0, 1, 3))
    .set 103 (.ein [(67, [0, 1, 2, 3]), (3, [4, 2])] [4, 0, 1, 3]) 1 1,
    -- 196: del tmp44
    .del 67,
    -- 197: tmp43 = einsum(tmp42, (0, 1, 2, 3), t1.aa, (2, 4), (0, 1, 4, 3))
    .set 104 (.ein [(68, [0, 1, 2, 3]), (3, [2, 4])] [0, 1, 4, 3]) 1 1,
    -- 198: del tmp42
    .del 68,
    -- 199: tmp22 = np.copy(f.bb.oo)
    .set 105 (.cp 22) 1 1,
    -- 200: tmp22 += einsum(t1.aa, (0, 1), v.aabb.ovoo, (0, 1, 2, 3), (2, 3))
    .add 105 (.ein [(3, [0, 1]), (16, [0, 1, 2, 3])] [2, 3]) 1 1,
    -- 201: tmp22 += einsum(t1.bb, (0, 1), tmp21, (0, 2, 3, 1), (3, 2)) * -1
    .add 105 (.ein [(1, [0, 1]), (69, [0, 2, 3, 1])] [3, 2]) (-1) 1,
    -- 202: del tmp21
    .del 69,
    -- 203: tmp18 = np.copy(t2.bbbb) * 2
    .set 106 (.cp 23) 2 1,
    -- 204: tmp18 += einsum(t1.bb, (0, 1), t1.bb, (2, 3), (2, 0, 3, 1))
    .add 106 (.ein [(1, [0, 1]), (1, [2, 3])] [2, 0, 3, 1]) 1 1,
    -- 205: tmp19 = einsum(v.aabb.ovov, (0, 1, 2, 3), t2.abab, (0, 4, 1, 3), (2, 4))
    .set 107 (.ein [(6, [0, 1, 2, 3]), (32, [0, 4, 1, 3])] [2, 4]) 1 1,
    -- 206: tmp19 += einsum(t2.bbbb, (0, 1, 2, 3), v.bbbb.ovov, (4, 3, 1, 2), (4, 0)) * -2
    .add 107 (.ein [(23, [0, 1, 2, 3]), (0, [4, 3, 1, 2])] [4, 0]) (-2) 1,
    -- 207: tmp19 += einsum(tmp13, (0, 1), t1.bb, (2, 1), (0, 2))
    .add 107 (.ein [(70, [0, 1]), (1, [2, 1])] [0, 2]) 1 1,
    -- 208: tmp3 = np.copy(t2.abab)
    .set 108 (.cp 32) 1 1,
    -- 209: tmp3 += einsum(t1.aa, (0, 1), t1.bb, (2, 3), (0, 2, 1, 3))
    .add 108 (.ein [(3, [0, 1]), (1, [2, 3])] [0, 2, 1, 3]) 1 1,
    -- 210: tmp20 = np.copy(f.bb.vv)
    .set 109 (.cp 24) 1 1,
    -- 211: tmp20 += einsum(t1.bb, (0, 1), v.bbbb.ovvv, (0, 2, 3, 1), (2, 3)) * -1
    .add 109 (.ein [(1, [0, 1]), (4, [0, 2, 3, 1])] [2, 3]) (-1) 1,
    -- 212: tmp4 = np.copy(t2.aaaa) * 2
    .set 110 (.cp 31) 2 1,
    -- 213: tmp4 += einsum(t1.aa, (0, 1), t1.aa, (2, 3), (0, 2, 1, 3))
    .add 110 (.ein [(3, [0, 1]), (3, [2, 3])] [0, 2, 1, 3]) 1 1,
    -- 214: tmp9 = np.copy(f.aa.vv)
    .set 111 (.cp 28) 1 1,
    -- 215: tmp9 += einsum(v.aaaa.ovvv, (0, 1, 2, 3), t1.aa, (0, 3), (1, 2)) * -1
    .add 111 (.ein [(8, [0, 1, 2, 3]), (3, [0, 3])] [1, 2]) (-1) 1,
    -- 216: tmp15 = np.copy(f.aa.oo)
    .set 112 (.cp 30) 1 1,
    -- 217: tmp15 += einsum(v.aabb.ooov, (0, 1, 2, 3), t1.bb, (2, 3), (0, 1))
    .add 112 (.ein [(15, [0, 1, 2, 3]), (1, [2, 3])] [0, 1]) 1 1,
    -- 218: tmp15 += einsum(tmp14, (0, 1, 2, 3), t1.aa, (2, 3), (1, 0)) * -1
    .add 112 (.ein [(71, [0, 1, 2, 3]), (3, [2, 3])] [1, 0]) (-1) 1,
    -- 219: del tmp14
    .del 71,
    -- 220: tmp8 = einsum(v.aaaa.ovov, (0, 1, 2, 3), t2.aaaa, (4, 2, 3, 1), (0, 4)) * -2
    .set 113 (.ein [(2, [0, 1, 2, 3]), (31, [4, 2, 3, 1])] [0, 4]) (-2) 1,
    -- 221: tmp8 += einsum(t2.abab, (0, 1, 2, 3), v.aabb.ovov, (4, 2, 1, 3), (4, 0))
    .add 113 (.ein [(32, [0, 1, 2, 3]), (6, [4, 2, 1, 3])] [4, 0]) 1 1,
    -- 222: tmp8 += einsum(t1.aa, (0, 1), tmp7, (2, 1), (2, 0))
    .add 113 (.ein [(3, [0, 1]), (72, [2, 1])] [2, 0]) 1 1,
    -- 223: t2new.bbbb = np.copy(tmp62)
    .set 114 (.cp 73) 1 1,
    -- 224: t2new.bbbb += np.transpose(tmp63, (1, 0, 3, 2)) * 2
    .add 114 (.tr 75 [1, 0, 3, 2]) 2 1,
    -- 225: t2new.bbbb += np.transpose(tmp62, (0, 1, 3, 2)) * -1
    .add 114 (.tr 73 [0, 1, 3, 2]) (-1) 1,
    -- 226: del tmp62
    .del 73,
    -- 227: t2new.bbbb += np.transpose(tmp63, (0, 1, 3, 2)) * -2
    .add 114 (.tr 75 [0, 1, 3, 2]) (-2) 1,
    -- 228: del tmp63
    .del 75,
    -- 229: t2new.bbbb += einsum(tmp64, (0, 1), t2.bbbb, (2, 3, 4, 0), (2, 3, 1, 4)) * -2
    .add 114 (.ein [(82, [0, 1]), (23, [2, 3, 4, 0])] [2, 3, 1, 4]) (-2) 1,
    -- 230: del tmp64
    .del 82,
    -- 231: t2new.bbbb += einsum(tmp48, (0, 1), t2.bbbb, (2, 3, 4, 0), (2, 3, 4, 1)) * 2
    .add 114 (.ein [(81, [0, 1]), (23, [2, 3, 4, 0])] [2, 3, 4, 1]) 2 1,
    -- 232: t2new.bbbb += np.transpose(tmp66, (1, 0, 3, 2))
    .add 114 (.tr 77 [1, 0, 3, 2]) 1 1,
    -- 233: t2new.bbbb += np.transpose(tmp67, (1, 0, 3, 2)) * 2
    .add 114 (.tr 84 [1, 0, 3, 2]) 2 1,
    -- 234: t2new.bbbb += np.transpose(tmp70, (1, 0, 2, 3))
    .add 114 (.tr 83 [1, 0, 2, 3]) 1 1,
    -- 235: t2new.bbbb += np.transpose(tmp70, (1, 0, 3, 2)) * -1
    .add 114 (.tr 83 [1, 0, 3, 2]) (-1) 1,
    -- 236: t2new.bbbb += np.transpose(tmp66, (1, 0, 2, 3)) * -1
    .add 114 (.tr 77 [1, 0, 2, 3]) (-1) 1,
    -- 237: t2new.bbbb += np.transpose(tmp67, (0, 1, 3, 2)) * -2
    .add 114 (.tr 84 [0, 1, 3, 2]) (-2) 1,
    -- 238: del tmp67
    .del 84,
    -- 239: t2new.bbbb += np.transpose(tmp66, (0, 1, 3, 2)) * -1
    .add 114 (.tr 77 [0, 1, 3, 2]) (-1) 1,
    -- 240: t2new.bbbb += tmp70 * -1
    .add 114 (.cp 83) (-1) 1,
    -- 241: t2new.bbbb += np.transpose(tmp70, (0, 1, 3, 2))
    .add 114 (.tr 83 [0, 1, 3, 2]) 1 1,
    -- 242: del tmp70
    .del 83,
    -- 243: t2new.bbbb += tmp66
    .add 114 (.cp 77) 1 1,
    -- 244: del tmp66
    .del 77,
    -- 245: t2new.bbbb += np.transpose(v.bbbb.ovov, (0, 2, 1, 3))
    .add 114 (.tr 0 [0, 2, 1, 3]) 1 1,
    -- 246: t2new.bbbb += np.transpose(tmp71, (1, 0, 3, 2)) * -1
    .add 114 (.tr 80 [1, 0, 3, 2]) (-1) 1,
    -- 247: t2new.bbbb += np.transpose(tmp72, (1, 0, 2, 3))
    .add 114 (.tr 38 [1, 0, 2, 3]) 1 1,
    -- 248: t2new.bbbb += np.transpose(v.bbbb.ovov, (0, 2, 3, 1)) * -1
    .add 114 (.tr 0 [0, 2, 3, 1]) (-1) 1,
    -- 249: t2new.bbbb += np.transpose(tmp71, (0, 1, 3, 2))
    .add 114 (.tr 80 [0, 1, 3, 2]) 1 1,
    -- 250: t2new.bbbb += tmp72 * -1
    .add 114 (.cp 38) (-1) 1,
    -- 251: t2new.bbbb += np.transpose(tmp73, (0, 1, 3, 2))
    .add 114 (.tr 76 [0, 1, 3, 2]) 1 1,
    -- 252: t2new.bbbb += np.transpose(tmp73, (1, 0, 3, 2)) * -1
    .add 114 (.tr 76 [1, 0, 3, 2]) (-1) 1,
    -- 253: t2new.bbbb += tmp73 * -1
    .add 114 (.cp 76) (-1) 1,
    -- 254: t2new.bbbb += np.transpose(tmp73, (1, 0, 2, 3))
    .add 114 (.tr 76 [1, 0, 2, 3]) 1 1,
    -- 255: del tmp73
    .del 76,
    -- 256: t2new.bbbb += np.transpose(tmp72, (0, 1, 3, 2))
    .add 114 (.tr 38 [0, 1, 3, 2]) 1 1,
    -- 257: t2new.bbbb += tmp75
    .add 114 (.cp 78) 1 1,
    -- 258: t2new.bbbb += np.transpose(tmp75, (0, 1, 3, 2)) * -1
    .add 114 (.tr 78 [0, 1, 3, 2]) (-1) 1,
    -- 259: del tmp75
    .del 78,
    -- 260: t2new.bbbb += np.transpose(tmp77, (0, 1, 3, 2))
    .add 114 (.tr 79 [0, 1, 3, 2]) 1 1,
    -- 261: t2new.bbbb += np.transpose(tmp77, (1, 0, 3, 2)) * -1
    .add 114 (.tr 79 [1, 0, 3, 2]) (-1) 1,
    -- 262: t2new.bbbb += tmp80
    .add 114 (.cp 74) 1 1,
    -- 263: t2new.bbbb += np.transpose(tmp80, (0, 1, 3, 2)) * -1
    .add 114 (.tr 74 [0, 1, 3, 2]) (-1) 1,
    -- 264: del tmp80
    .del 74,
    -- 265: t2new.bbbb += np.transpose(tmp72, (1, 0, 3, 2)) * -1
    .add 114 (.tr 38 [1, 0, 3, 2]) (-1) 1,
    -- 266: del tmp72
    .del 38,
    -- 267: t2new.bbbb += tmp71 * -1
    .add 114 (.cp 80) (-1) 1,
    -- 268: t2new.bbbb += np.transpose(tmp71, (1, 0, 2, 3))
    .add 114 (.tr 80 [1, 0, 2, 3]) 1 1,
    -- 269: del tmp71
    .del 80,
    -- 270: t2new.bbbb += tmp77 * -1
    .add 114 (.cp 79) (-1) 1,
    -- 271: t2new.bbbb += np.transpose(tmp77, (1, 0, 2, 3))
    .add 114 (.tr 79 [1, 0, 2, 3]) 1 1,
    -- 272: del tmp77
    .del 79,
    -- 273: t2new.abab = einsum(t2.abab, (0, 1, 2, 3), f.bb.oo, (4, 1), (0, 4, 2, 3)) * -1
    .set 115 (.ein [(32, [0, 1, 2, 3]), (22, [4, 1])] [0, 4, 2, 3]) (-1) 1,
    -- 274: t2new.abab += einsum(tmp46, (0, 1, 2, 3), t1.aa, (1, 4), (0, 2, 4, 3))
    .add 115 (.ein [(90, [0, 1, 2, 3]), (3, [1, 4])] [0, 2, 4, 3]) 1 1,
    -- 275: del tmp46
    .del 90,
    -- 276: t2new.abab += einsum(f.aa.oo, (0, 1), t2.abab, (1, 2, 3, 4), (0, 2, 3, 4)) * -1
    .add 115 (.ein [(30, [0, 1]), (32, [1, 2, 3, 4])] [0, 2, 3, 4]) (-1) 1,
    -- 277: t2new.abab += einsum(t2.abab, (0, 1, 2, 3), tmp27, (2, 4), (0, 1, 4, 3))
    .add 115 (.ein [(32, [0, 1, 2, 3]), (91, [2, 4])] [0, 1, 4, 3]) 1 1,
    -- 278: t2new.abab += einsum(t2.abab, (0, 1, 2, 3), tmp48, (3, 4), (0, 1, 2, 4))
    .add 115 (.ein [(32, [0, 1, 2, 3]), (81, [3, 4])] [0, 1, 2, 4]) 1 1,
    -- 279: del tmp48
    .del 81,
    -- 280: t2new.abab += einsum(tmp50, (0, 1, 2, 3), t1.aa, (0, 4), (1, 2, 4, 3))
    .add 115 (.ein [(87, [0, 1, 2, 3]), (3, [0, 4])] [1, 2, 4, 3]) 1 1,
    -- 281: del tmp50
    .del 87,
    -- 282: t2new.abab += einsum(tmp51, (0, 1), t2.abab, (2, 0, 3, 4), (2, 1, 3, 4)) * -1
    .add 115 (.ein [(55, [0, 1]), (32, [2, 0, 3, 4])] [2, 1, 3, 4]) (-1) 1,
    -- 283: del tmp51
    .del 55,
    -- 284: t2new.abab += einsum(t2.abab, (0, 1, 2, 3), tmp31, (0, 4), (4, 1, 2, 3)) * -1
    .add 115 (.ein [(32, [0, 1, 2, 3]), (62, [0, 4])] [4, 1, 2, 3]) (-1) 1,
    -- 285: del tmp31
    .del 62,
    -- 286: t2new.abab += einsum(tmp53, (0, 1, 2, 3), t1.bb, (1, 4), (0, 2, 3, 4)) * -1
    .add 115 (.ein [(89, [0, 1, 2, 3]), (1, [1, 4])] [0, 2, 3, 4]) (-1) 1,
    -- 287: del tmp53
    .del 89,
    -- 288: t2new.abab += np.transpose(v.aabb.ovov, (0, 2, 1, 3))
    .add 115 (.tr 6 [0, 2, 1, 3]) 1 1,
    -- 289: t2new.abab += einsum(tmp17, (0, 1, 2, 3), t1.bb, (2, 4), (0, 1, 3, 4)) * -1
    .add 115 (.ein [(40, [0, 1, 2, 3]), (1, [2, 4])] [0, 1, 3, 4]) (-1) 1,
    -- 290: t2new.abab += tmp54
    .add 115 (.cp 58) 1 1,
    -- 291: del tmp54
    .del 58,
    -- 292: t2new.abab += einsum(v.aabb.ovoo, (0, 1, 2, 3), t1.bb, (3, 4), (0, 2, 1, 4)) * -1
    .add 115 (.ein [(16, [0, 1, 2, 3]), (1, [3, 4])] [0, 2, 1, 4]) (-1) 1,
    -- 293: t2new.abab += einsum(t1.aa, (0, 1), v.aabb.ooov, (2, 0, 3, 4), (2, 3, 1, 4)) * -1
    .add 115 (.ein [(3, [0, 1]), (15, [2, 0, 3, 4])] [2, 3, 1, 4]) (-1) 1,
    -- 294: t2new.abab += einsum(t1.aa, (0, 1), tmp55, (2, 1, 3, 4), (0, 2, 3, 4))
    .add 115 (.ein [(3, [0, 1]), (88, [2, 1, 3, 4])] [0, 2, 3, 4]) 1 1,
    -- 295: del tmp55
    .del 88,
    -- 296: t2new.abab += einsum(tmp58, (0, 1, 2, 3), t1.bb, (2, 4), (0, 1, 3, 4)) * -1
    .add 115 (.ein [(85, [0, 1, 2, 3]), (1, [2, 4])] [0, 1, 3, 4]) (-1) 1,
    -- 297: del tmp58
    .del 85,
    -- 298: t2new.abab += einsum(t1.aa, (0, 1), tmp1, (2, 0, 3, 4), (2, 3, 1, 4)) * -1
    .add 115 (.ein [(3, [0, 1]), (93, [2, 0, 3, 4])] [2, 3, 1, 4]) (-1) 1,
    -- 299: t2new.abab += einsum(t1.aa, (0, 1), tmp59, (2, 0, 3, 4), (2, 3, 1, 4)) * -1
    .add 115 (.ein [(3, [0, 1]), (92, [2, 0, 3, 4])] [2, 3, 1, 4]) (-1) 1,
    -- 300: del tmp59
    .del 92,
    -- 301: t2new.abab += einsum(t1.aa, (0, 1), tmp60, (2, 0, 3, 4), (2, 3, 1, 4)) * -1
    .add 115 (.ein [(3, [0, 1]), (86, [2, 0, 3, 4])] [2, 3, 1, 4]) (-1) 1,
    -- 302: del tmp60
    .del 86,
    -- 303: t2new.aaaa = np.copy(tmp24)
    .set 116 (.cp 102) 1 1,
    -- 304: t2new.aaaa += np.transpose(tmp25, (1, 0, 3, 2)) * 2
    .add 116 (.tr 94 [1, 0, 3, 2]) 2 1,
    -- 305: t2new.aaaa += np.transpose(tmp24, (0, 1, 3, 2)) * -1
    .add 116 (.tr 102 [0, 1, 3, 2]) (-1) 1,
    -- 306: del tmp24
    .del 102,
    -- 307: t2new.aaaa += np.transpose(tmp25, (0, 1, 3, 2)) * -2
    .add 116 (.tr 94 [0, 1, 3, 2]) (-2) 1,
    -- 308: del tmp25
    .del 94,
    -- 309: t2new.aaaa += einsum(tmp27, (0, 1), t2.aaaa, (2, 3, 4, 0), (2, 3, 1, 4)) * -2
    .add 116 (.ein [(91, [0, 1]), (31, [2, 3, 4, 0])] [2, 3, 1, 4]) (-2) 1,
    -- 310: del tmp27
    .del 91,
    -- 311: t2new.aaaa += einsum(t2.aaaa, (0, 1, 2, 3), tmp28, (3, 4), (0, 1, 2, 4)) * 2
    .add 116 (.ein [(31, [0, 1, 2, 3]), (101, [3, 4])] [0, 1, 2, 4]) 2 1,
    -- 312: del tmp28
    .del 101,
    -- 313: t2new.aaaa += np.transpose(tmp30, (1, 0, 3, 2))
    .add 116 (.tr 99 [1, 0, 3, 2]) 1 1,
    -- 314: t2new.aaaa += np.transpose(tmp32, (1, 0, 3, 2)) * 2
    .add 116 (.tr 95 [1, 0, 3, 2]) 2 1,
    -- 315: t2new.aaaa += np.transpose(tmp35, (1, 0, 2, 3))
    .add 116 (.tr 98 [1, 0, 2, 3]) 1 1,
    -- 316: t2new.aaaa += np.transpose(tmp35, (1, 0, 3, 2)) * -1
    .add 116 (.tr 98 [1, 0, 3, 2]) (-1) 1,
    -- 317: t2new.aaaa += np.transpose(tmp30, (1, 0, 2, 3)) * -1
    .add 116 (.tr 99 [1, 0, 2, 3]) (-1) 1,
    -- 318: t2new.aaaa += np.transpose(tmp32, (0, 1, 3, 2)) * -2
    .add 116 (.tr 95 [0, 1, 3, 2]) (-2) 1,
    -- 319: del tmp32
    .del 95,
    -- 320: t2new.aaaa += np.transpose(tmp30, (0, 1, 3, 2)) * -1
    .add 116 (.tr 99 [0, 1, 3, 2]) (-1) 1,
    -- 321: t2new.aaaa += tmp35 * -1
    .add 116 (.cp 98) (-1) 1,
    -- 322: t2new.aaaa += np.transpose(tmp35, (0, 1, 3, 2))
    .add 116 (.tr 98 [0, 1, 3, 2]) 1 1,
    -- 323: del tmp35
    .del 98,
    -- 324: t2new.aaaa += tmp30
    .add 116 (.cp 99) 1 1,
    -- 325: del tmp30
    .del 99,
    -- 326: t2new.aaaa += np.transpose(tmp36, (1, 0, 2, 3))
    .add 116 (.tr 43 [1, 0, 2, 3]) 1 1,
    -- 327: t2new.aaaa += np.transpose(v.aaaa.ovov, (0, 2, 1, 3))
    .add 116 (.tr 2 [0, 2, 1, 3]) 1 1,
    -- 328: t2new.aaaa += np.transpose(tmp37, (1, 0, 3, 2)) * -1
    .add 116 (.tr 100 [1, 0, 3, 2]) (-1) 1,
    -- 329: t2new.aaaa += tmp36 * -1
    .add 116 (.cp 43) (-1) 1,
    -- 330: t2new.aaaa += np.transpose(v.aaaa.ovov, (0, 2, 3, 1)) * -1
    .add 116 (.tr 2 [0, 2, 3, 1]) (-1) 1,
    -- 331: t2new.aaaa += np.transpose(tmp37, (0, 1, 3, 2))
    .add 116 (.tr 100 [0, 1, 3, 2]) 1 1,
    -- 332: t2new.aaaa += np.transpose(tmp38, (0, 1, 3, 2))
    .add 116 (.tr 97 [0, 1, 3, 2]) 1 1,
    -- 333: t2new.aaaa += np.transpose(tmp38, (1, 0, 3, 2)) * -1
    .add 116 (.tr 97 [1, 0, 3, 2]) (-1) 1,
    -- 334: t2new.aaaa += tmp38 * -1
    .add 116 (.cp 97) (-1) 1,
    -- 335: t2new.aaaa += np.transpose(tmp38, (1, 0, 2, 3))
    .add 116 (.tr 97 [1, 0, 2, 3]) 1 1,
    -- 336: del tmp38
    .del 97,
    -- 337: t2new.aaaa += np.transpose(tmp36, (0, 1, 3, 2))
    .add 116 (.tr 43 [0, 1, 3, 2]) 1 1,
    -- 338: t2new.aaaa += tmp41
    .add 116 (.cp 96) 1 1,
    -- 339: t2new.aaaa += np.transpose(tmp41, (0, 1, 3, 2)) * -1
    .add 116 (.tr 96 [0, 1, 3, 2]) (-1) 1,
    -- 340: del tmp41
    .del 96,
    -- 341: t2new.aaaa += np.transpose(tmp43, (0, 1, 3, 2))
    .add 116 (.tr 104 [0, 1, 3, 2]) 1 1,
    -- 342: t2new.aaaa += np.transpose(tmp43, (1, 0, 3, 2)) * -1
    .add 116 (.tr 104 [1, 0, 3, 2]) (-1) 1,
    -- 343: t2new.aaaa += tmp45
    .add 116 (.cp 103) 1 1,
    -- 344: t2new.aaaa += np.transpose(tmp45, (0, 1, 3, 2)) * -1
    .add 116 (.tr 103 [0, 1, 3, 2]) (-1) 1,
    -- 345: del tmp45
    .del 103,
    -- 346: t2new.aaaa += np.transpose(tmp36, (1, 0, 3, 2)) * -1
    .add 116 (.tr 43 [1, 0, 3, 2]) (-1) 1,
    -- 347: del tmp36
    .del 43,
    -- 348: t2new.aaaa += tmp37 * -1
    .add 116 (.cp 100) (-1) 1,
    -- 349: t2new.aaaa += np.transpose(tmp37, (1, 0, 2, 3))
    .add 116 (.tr 100 [1, 0, 2, 3]) 1 1,
    -- 350: del tmp37
    .del 100,
    -- 351: t2new.aaaa += tmp43 * -1
    .add 116 (.cp 104) (-1) 1,
    -- 352: t2new.aaaa += np.transpose(tmp43, (1, 0, 2, 3))
    .add 116 (.tr 104 [1, 0, 2, 3]) 1 1,
    -- 353: del tmp43
    .del 104,
    -- 354: t1new.bb = einsum(t1.bb, (0, 1), v.bbbb.ovov, (2, 3, 0, 1), (2, 3))
    .set 117 (.ein [(1, [0, 1]), (0, [2, 3, 0, 1])] [2, 3]) 1 1,
    -- 355: t1new.bb += f.bb.ov
    .add 117 (.cp 12) 1 1,
    -- 356: t1new.bb += einsum(t2.bbbb, (0, 1, 2, 3), tmp16, (4, 1, 0, 3), (4, 2)) * -2
    .add 117 (.ein [(23, [0, 1, 2, 3]), (33, [4, 1, 0, 3])] [4, 2]) (-2) 1,
    -- 357: del tmp16
    .del 33,
    -- 358: t1new.bb += tmp10
    .add 117 (.cp 45) 1 1,
    -- 359: del tmp10
    .del 45,
    -- 360: t1new.bb += einsum(tmp17, (0, 1, 2, 3), t2.abab, (0, 2, 3, 4), (1, 4)) * -1
    .add 117 (.ein [(40, [0, 1, 2, 3]), (32, [0, 2, 3, 4])] [1, 4]) (-1) 1,
    -- 361: del tmp17
    .del 40,
    -- 362: t1new.bb += einsum(tmp3, (0, 1, 2, 3), v.aabb.ovvv, (0, 2, 4, 3), (1, 4))
    .add 117 (.ein [(108, [0, 1, 2, 3]), (14, [0, 2, 4, 3])] [1, 4]) 1 1,
    -- 363: t1new.bb += einsum(tmp18, (0, 1, 2, 3), v.bbbb.ovvv, (0, 2, 4, 3), (1, 4))
    .add 117 (.ein [(106, [0, 1, 2, 3]), (4, [0, 2, 4, 3])] [1, 4]) 1 1,
    -- 364: del tmp18
    .del 106,
    -- 365: t1new.bb += einsum(tmp19, (0, 1), t1.bb, (0, 2), (1, 2)) * -1
    .add 117 (.ein [(107, [0, 1]), (1, [0, 2])] [1, 2]) (-1) 1,
    -- 366: del tmp19
    .del 107,
    -- 367: t1new.bb += einsum(tmp20, (0, 1), t1.bb, (2, 0), (2, 1))
    .add 117 (.ein [(109, [0, 1]), (1, [2, 0])] [2, 1]) 1 1,
    -- 368: del tmp20
    .del 109,
    -- 369: t1new.bb += einsum(v.bbbb.oovv, (0, 1, 2, 3), t1.bb, (1, 3), (0, 2)) * -1
    .add 117 (.ein [(10, [0, 1, 2, 3]), (1, [1, 3])] [0, 2]) (-1) 1,
    -- 370: t1new.bb += einsum(t2.bbbb, (0, 1, 2, 3), v.bbbb.ooov, (4, 0, 1, 3), (4, 2)) * -2
    .add 117 (.ein [(23, [0, 1, 2, 3]), (5, [4, 0, 1, 3])] [4, 2]) (-2) 1,
    -- 371: t1new.bb += einsum(v.aabb.ovoo, (0, 1, 2, 3), t2.abab, (0, 3, 1, 4), (2, 4)) * -1
    .add 117 (.ein [(16, [0, 1, 2, 3]), (32, [0, 3, 1, 4])] [2, 4]) (-1) 1,
    -- 372: t1new.bb += einsum(tmp13, (0, 1), t2.bbbb, (2, 0, 3, 1), (2, 3)) * 2
    .add 117 (.ein [(70, [0, 1]), (23, [2, 0, 3, 1])] [2, 3]) 2 1,
    -- 373: t1new.bb += einsum(t2.abab, (0, 1, 2, 3), tmp7, (0, 2), (1, 3))
    .add 117 (.ein [(32, [0, 1, 2, 3]), (72, [0, 2])] [1, 3]) 1 1,
    -- 374: t1new.bb += einsum(tmp22, (0, 1), t1.bb, (0, 2), (1, 2)) * -1
    .add 117 (.ein [(105, [0, 1]), (1, [0, 2])] [1, 2]) (-1) 1,
    -- 375: del tmp22
    .del 105,
    -- 376: t1new.aa = np.copy(tmp0)
    .set 118 (.cp 47) 1 1,
    -- 377: del tmp0
    .del 47,
    -- 378: t1new.aa += einsum(t2.abab, (0, 1, 2, 3), tmp1, (4, 0, 1, 3), (4, 2)) * -1
    .add 118 (.ein [(32, [0, 1, 2, 3]), (93, [4, 0, 1, 3])] [4, 2]) (-1) 1,
    -- 379: del tmp1
    .del 93,
    -- 380: t1new.aa += einsum(tmp2, (0, 1, 2, 3), t2.aaaa, (2, 1, 4, 3), (0, 4)) * -2
    .add 118 (.ein [(34, [0, 1, 2, 3]), (31, [2, 1, 4, 3])] [0, 4]) (-2) 1,
    -- 381: del tmp2
    .del 34,
    -- 382: t1new.aa += f.aa.ov
    .add 118 (.cp 17) 1 1,
    -- 383: t1new.aa += einsum(v.aaaa.ovov, (0, 1, 2, 3), t1.aa, (2, 3), (0, 1))
    .add 118 (.ein [(2, [0, 1, 2, 3]), (3, [2, 3])] [0, 1]) 1 1,
    -- 384: t1new.aa += einsum(tmp3, (0, 1, 2, 3), v.aabb.vvov, (4, 2, 1, 3), (0, 4))
    .add 118 (.ein [(108, [0, 1, 2, 3]), (13, [4, 2, 1, 3])] [0, 4]) 1 1,
    -- 385: del tmp3
    .del 108,
    -- 386: t1new.aa += einsum(v.aaaa.ovvv, (0, 1, 2, 3), tmp4, (0, 4, 1, 3), (4, 2))
    .add 118 (.ein [(8, [0, 1, 2, 3]), (110, [0, 4, 1, 3])] [4, 2]) 1 1,
    -- 387: del tmp4
    .del 110,
    -- 388: t1new.aa += einsum(t1.aa, (0, 1), tmp8, (0, 2), (2, 1)) * -1
    .add 118 (.ein [(3, [0, 1]), (113, [0, 2])] [2, 1]) (-1) 1,
    -- 389: del tmp8
    .del 113,
    -- 390: t1new.aa += einsum(t1.aa, (0, 1), tmp9, (1, 2), (0, 2))
    .add 118 (.ein [(3, [0, 1]), (111, [1, 2])] [0, 2]) 1 1,
    -- 391: del tmp9
    .del 111,
    -- 392: t1new.aa += einsum(t2.abab, (0, 1, 2, 3), v.aabb.ooov, (4, 0, 1, 3), (4, 2)) * -1
    .add 118 (.ein [(32, [0, 1, 2, 3]), (15, [4, 0, 1, 3])] [4, 2]) (-1) 1,
    -- 393: t1new.aa += einsum(v.aaaa.ooov, (0, 1, 2, 3), t2.aaaa, (1, 2, 4, 3), (0, 4)) * -2
    .add 118 (.ein [(7, [0, 1, 2, 3]), (31, [1, 2, 4, 3])] [0, 4]) (-2) 1,
    -- 394: t1new.aa += einsum(v.aaaa.oovv, (0, 1, 2, 3), t1.aa, (1, 3), (0, 2)) * -1
    .add 118 (.ein [(18, [0, 1, 2, 3]), (3, [1, 3])] [0, 2]) (-1) 1,
    -- 395: t1new.aa += einsum(t2.abab, (0, 1, 2, 3), tmp13, (1, 3), (0, 2))
    .add 118 (.ein [(32, [0, 1, 2, 3]), (70, [1, 3])] [0, 2]) 1 1,
    -- 396: del tmp13
    .del 70,
    -- 397: t1new.aa += einsum(tmp7, (0, 1), t2.aaaa, (2, 0, 3, 1), (2, 3)) * 2
    .add 118 (.ein [(72, [0, 1]), (31, [2, 0, 3, 1])] [2, 3]) 2 1,
    -- 398: del tmp7
    .del 72,
    -- 399: t1new.aa += einsum(tmp15, (0, 1), t1.aa, (0, 2), (1, 2)) * -1
    .add 118 (.ein [(112, [0, 1]), (3, [0, 2])] [1, 2]) (-1) 1,
    -- 400: del tmp15
    .del 112
  ]
  ret := [(chars! "t1new.bb", 117), (chars! "t1new.aa", 118), (chars! "t2new.bbbb", 114), (chars! "t2new.abab", 115), (chars! "t2new.aaaa", 116)]

/-- codegen/UCC2.py:404-1353 `update_lams`. -/
def update_lams : GenFun where
  args := [chars! "v.bbbb.ovov", chars! "v.aaaa.ovov", chars! "v.aabb.ovov", chars! "t1.bb", chars! "v.bbbb.ovvv", chars! "t1.aa", chars! "v.aaaa.ovvv", chars! "l1.bb", chars! "t2.abab", chars! "l2.abab", chars! "t2.bbbb", chars! "l2.bbbb", chars! "l1.aa", chars! "l2.aaaa", chars! "t2.aaaa", chars! "v.aabb.ovoo", chars! "v.aabb.ovvv", chars! "v.aabb.vvov", chars! "v.bbbb.ooov", chars! "v.bbbb.ovoo", chars! "f.bb.ov", chars! "v.aaaa.ooov", chars! "v.aaaa.ovoo", chars! "f.aa.ov", chars! "v.aabb.ooov", chars! "v.bbbb.oovv", chars! "f.bb.vv", chars! "f.aa.vv", chars! "v.aaaa.oovv", chars! "v.bbbb.oooo", chars! "v.aabb.oooo", chars! "v.aabb.vvoo", chars! "v.aaaa.oooo", chars! "f.bb.oo", chars! "v.bbbb.vvvv", chars! "v.aabb.oovv", chars! "f.aa.oo", chars! "v.aabb.vvvv", chars! "v.aaaa.vvvv"]
  body := [
    -- 433: tmp92 = np.copy(np.transpose(v.bbbb.ovov, (0, 2, 3, 1)))
    .set 39 (.tr 0 [0, 2, 3, 1]) 1 1,
    -- 434: tmp92 += np.transpose(v.bbbb.ovov, (0, 2, 1, 3)) * -1
    .add 39 (.tr 0 [0, 2, 1, 3]) (-1) 1,
    -- 435: tmp150 = np.copy(np.transpose(v.aaaa.ovov, (0, 2, 3, 1)))
    .set 40 (.tr 1 [0, 2, 3, 1]) 1 1,
    -- 436: tmp150 += np.transpose(v.aaaa.ovov, (0, 2, 1, 3)) * -1
    .add 40 (.tr 1 [0, 2, 1, 3]) (-1) 1,
    -- 437: tmp7 = np.copy(np.transpose(v.aaaa.ovov, (0, 2, 3, 1)))
    .set 41 (.tr 1 [0, 2, 3, 1]) 1 1,
    -- 438: tmp7 += np.transpose(v.aaaa.ovov, (0, 2, 1, 3)) * -1
    .add 41 (.tr 1 [0, 2, 1, 3]) (-1) 1,
    -- 439: tmp2 = einsum(v.aabb.ovov, (0, 1, 2, 3), t1.bb, (4, 3), (0, 4, 2, 1))
    .set 42 (.ein [(2, [0, 1, 2, 3]), (3, [4, 3])] [0, 4, 2, 1]) 1 1,
    -- 440: tmp186 = np.copy(np.transpose(v.bbbb.ovov, (0, 2, 3, 1)))
    .set 43 (.tr 0 [0, 2, 3, 1]) 1 1,
    -- 441: tmp186 += np.transpose(v.bbbb.ovov, (0, 2, 1, 3)) * -1
    .add 43 (.tr 0 [0, 2, 1, 3]) (-1) 1,
    -- 442: tmp204 = np.copy(v.bbbb.ovvv)
    .set 44 (.cp 4) 1 1,
    -- 443: tmp204 += np.transpose(v.bbbb.ovvv, (0, 2, 3, 1)) * -1
    .add 44 (.tr 4 [0, 2, 3, 1]) (-1) 1,
    -- 444: tmp217 = np.copy(v.bbbb.ovvv) * -1
    .set 45 (.cp 4) (-1) 1,
    -- 445: tmp217 += np.transpose(v.bbbb.ovvv, (0, 2, 3, 1))
    .add 45 (.tr 4 [0, 2, 3, 1]) 1 1,
    -- 446: tmp91 = einsum(t1.aa, (0, 1), v.aabb.ovov, (0, 1, 2, 3), (2, 3))
    .set 46 (.ein [(5, [0, 1]), (2, [0, 1, 2, 3])] [2, 3]) 1 1,
    -- 447: tmp93 = einsum(tmp92, (0, 1, 2, 3), t1.bb, (0, 2), (1, 3))
    .set 47 (.ein [(39, [0, 1, 2, 3]), (3, [0, 2])] [1, 3]) 1 1,
    -- 448: del tmp92
    .del 39,
    -- 449: tmp6 = einsum(v.aabb.ovov, (0, 1, 2, 3), t1.bb, (2, 3), (0, 1))
    .set 48 (.ein [(2, [0, 1, 2, 3]), (3, [2, 3])] [0, 1]) 1 1,
    -- 450: tmp151 = einsum(tmp150, (0, 1, 2, 3), t1.aa, (0, 2), (1, 3))
    .set 49 (.ein [(40, [0, 1, 2, 3]), (5, [0, 2])] [1, 3]) 1 1,
    -- 451: del tmp150
    .del 40,
    -- 452: tmp161 = np.copy(v.aaaa.ovvv)
    .set 50 (.cp 6) 1 1,
    -- 453: tmp161 += np.transpose(v.aaaa.ovvv, (0, 2, 1, 3)) * -1
    .add 50 (.tr 6 [0, 2, 1, 3]) (-1) 1,
    -- 454: tmp142 = np.copy(v.aaaa.ovvv)
    .set 51 (.cp 6) 1 1,
    -- 455: tmp142 += np.transpose(v.aaaa.ovvv, (0, 2, 3, 1)) * -1
    .add 51 (.tr 6 [0, 2, 3, 1]) (-1) 1,
    -- 456: tmp8 = einsum(tmp7, (0, 1, 2, 3), t1.aa, (0, 2), (1, 3))
    .set 52 (.ein [(41, [0, 1, 2, 3]), (5, [0, 2])] [1, 3]) 1 1,
    -- 457: del tmp7
    .del 41,
    -- 458: tmp52 = einsum(l1.bb, (0, 1), t1.bb, (2, 0), (1, 2))
    .set 53 (.ein [(7, [0, 1]), (3, [2, 0])] [1, 2]) 1 1,
    -- 459: tmp53 = einsum(t2.abab, (0, 1, 2, 3), l2.abab, (2, 3, 0, 4), (4, 1))
    .set 54 (.ein [(8, [0, 1, 2, 3]), (9, [2, 3, 0, 4])] [4, 1]) 1 1,
    -- 460: tmp54 = einsum(t2.bbbb, (0, 1, 2, 3), l2.bbbb, (2, 3, 4, 1), (4, 0))
    .set 55 (.ein [(10, [0, 1, 2, 3]), (11, [2, 3, 4, 1])] [4, 0]) 1 1,
    -- 461: tmp89 = einsum(v.bbbb.ovov, (0, 1, 2, 3), t1.bb, (4, 3), (4, 0, 2, 1))
    .set 56 (.ein [(0, [0, 1, 2, 3]), (3, [4, 3])] [4, 0, 2, 1]) 1 1,
    -- 462: tmp42 = einsum(t2.abab, (0, 1, 2, 3), l2.abab, (2, 3, 4, 1), (4, 0))
    .set 57 (.ein [(8, [0, 1, 2, 3]), (9, [2, 3, 4, 1])] [4, 0]) 1 1,
    -- 463: tmp40 = einsum(t1.aa, (0, 1), l1.aa, (1, 2), (2, 0))
    .set 58 (.ein [(5, [0, 1]), (12, [1, 2])] [2, 0]) 1 1,
    -- 464: tmp41 = einsum(l2.aaaa, (0, 1, 2, 3), t2.aaaa, (4, 3, 0, 1), (2, 4))
    .set 59 (.ein [(13, [0, 1, 2, 3]), (14, [4, 3, 0, 1])] [2, 4]) 1 1,
    -- 465: tmp48 = einsum(l2.abab, (0, 1, 2, 3), t1.bb, (4, 1), (2, 3, 4, 0))
    .set 60 (.ein [(9, [0, 1, 2, 3]), (3, [4, 1])] [2, 3, 4, 0]) 1 1,
    -- 466: tmp14 = np.copy(np.transpose(v.aabb.ovoo, (0, 2, 3, 1)))
    .set 61 (.tr 15 [0, 2, 3, 1]) 1 1,
    -- 467: tmp14 += tmp2
    .add 61 (.cp 42) 1 1,
    -- 468: tmp0 = einsum(t1.aa, (0, 1), v.aaaa.ovov, (2, 3, 4, 1), (0, 2, 4, 3))
    .set 62 (.ein [(5, [0, 1]), (1, [2, 3, 4, 1])] [0, 2, 4, 3]) 1 1,
    -- 469: tmp36 = einsum(t1.aa, (0, 1), l2.aaaa, (2, 1, 3, 4), (3, 4, 0, 2))
    .set 63 (.ein [(5, [0, 1]), (13, [2, 1, 3, 4])] [3, 4, 0, 2]) 1 1,
    -- 470: tmp187 = einsum(t1.bb, (0, 1), tmp186, (0, 2, 1, 3), (2, 3))
    .set 64 (.ein [(3, [0, 1]), (43, [0, 2, 1, 3])] [2, 3]) 1 1,
    -- 471: del tmp186
    .del 43,
    -- 472: tmp205 = einsum(tmp204, (0, 1, 2, 3), t1.bb, (4, 1), (0, 4, 2, 3))
    .set 65 (.ein [(44, [0, 1, 2, 3]), (3, [4, 1])] [0, 4, 2, 3]) 1 1,
    -- 473: del tmp204
    .del 44,
    -- 474: tmp50 = einsum(t1.bb, (0, 1), l2.bbbb, (2, 1, 3, 4), (3, 4, 0, 2))
    .set 66 (.ein [(3, [0, 1]), (11, [2, 1, 3, 4])] [3, 4, 0, 2]) 1 1,
    -- 475: tmp127 = einsum(t1.aa, (0, 1), v.aabb.ovvv, (0, 1, 2, 3), (2, 3))
    .set 67 (.ein [(5, [0, 1]), (16, [0, 1, 2, 3])] [2, 3]) 1 1,
    -- 476: tmp218 = einsum(tmp217, (0, 1, 2, 3), t1.bb, (0, 1), (2, 3))
    .set 68 (.ein [(45, [0, 1, 2, 3]), (3, [0, 1])] [2, 3]) 1 1,
    -- 477: del tmp217
    .del 45,
    -- 478: tmp175 = einsum(t1.aa, (0, 1), v.aabb.vvov, (2, 1, 3, 4), (0, 3, 2, 4))
    .set 69 (.ein [(5, [0, 1]), (17, [2, 1, 3, 4])] [0, 3, 2, 4]) 1 1,
    -- 479: tmp106 = np.copy(v.bbbb.ooov)
    .set 70 (.cp 18) 1 1,
    -- 480: tmp106 += np.transpose(v.bbbb.ovoo, (0, 2, 3, 1)) * -1
    .add 70 (.tr 19 [0, 2, 3, 1]) (-1) 1,
    -- 481: tmp94 = np.copy(f.bb.ov)
    .set 71 (.cp 20) 1 1,
    -- 482: tmp94 += tmp91
    .add 71 (.cp 46) 1 1,
    -- 483: tmp94 += tmp93 * -1
    .add 71 (.cp 47) (-1) 1,
    -- 484: del tmp93
    .del 47,
    -- 485: tmp85 = np.copy(v.aaaa.ovvv)
    .set 72 (.cp 6) 1 1,
    -- 486: tmp85 += np.transpose(v.aaaa.ovvv, (0, 2, 1, 3)) * -1
    .add 72 (.tr 6 [0, 2, 1, 3]) (-1) 1,
    -- 487: tmp148 = np.copy(v.aaaa.ooov) * -1
    .set 73 (.cp 21) (-1) 1,
    -- 488: tmp148 += np.transpose(v.aaaa.ovoo, (0, 2, 3, 1))
    .add 73 (.tr 22 [0, 2, 3, 1]) 1 1,
    -- 489: tmp152 = np.copy(f.aa.ov)
    .set 74 (.cp 23) 1 1,
    -- 490: tmp152 += tmp6
    .add 74 (.cp 48) 1 1,
    -- 491: tmp152 += tmp151 * -1
    .add 74 (.cp 49) (-1) 1,
    -- 492: del tmp151
    .del 49,
    -- 493: tmp84 = einsum(v.aabb.vvov, (0, 1, 2, 3), t1.bb, (2, 3), (0, 1))
    .set 75 (.ein [(17, [0, 1, 2, 3]), (3, [2, 3])] [0, 1]) 1 1,
    -- 494: tmp162 = einsum(tmp161, (0, 1, 2, 3), t1.aa, (0, 2), (1, 3))
    .set 76 (.ein [(50, [0, 1, 2, 3]), (5, [0, 2])] [1, 3]) 1 1,
    -- 495: del tmp161
    .del 50,
    -- 496: tmp143 = einsum(t1.aa, (0, 1), tmp142, (2, 1, 3, 4), (2, 0, 3, 4))
    .set 77 (.ein [(5, [0, 1]), (51, [2, 1, 3, 4])] [2, 0, 3, 4]) 1 1,
    -- 497: del tmp142
    .del 51,
    -- 498: tmp10 = einsum(v.aabb.ovvv, (0, 1, 2, 3), t1.bb, (4, 3), (0, 4, 1, 2))
    .set 78 (.ein [(16, [0, 1, 2, 3]), (3, [4, 3])] [0, 4, 1, 2]) 1 1,
    -- 499: tmp9 = np.copy(f.aa.ov)
    .set 79 (.cp 23) 1 1,
    -- 500: tmp9 += tmp6
    .add 79 (.cp 48) 1 1,
    -- 501: tmp9 += tmp8 * -1
    .add 79 (.cp 52) (-1) 1,
    -- 502: del tmp8
    .del 52,
    -- 503: tmp60 = np.copy(v.aaaa.ooov) * -1
    .set 80 (.cp 21) (-1) 1,
    -- 504: tmp60 += np.transpose(v.aaaa.ovoo, (0, 2, 3, 1))
    .add 80 (.tr 22 [0, 2, 3, 1]) 1 1,
    -- 505: tmp55 = np.copy(tmp52)
    .set 81 (.cp 53) 1 1,
    -- 506: tmp55 += tmp53
    .add 81 (.cp 54) 1 1,
    -- 507: tmp55 += tmp54 * 2
    .add 81 (.cp 55) 2 1,
    -- 508: tmp101 = einsum(v.bbbb.ooov, (0, 1, 2, 3), t1.bb, (4, 3), (4, 0, 1, 2))
    .set 82 (.ein [(18, [0, 1, 2, 3]), (3, [4, 3])] [4, 0, 1, 2]) 1 1,
    -- 509: tmp100 = einsum(tmp89, (0, 1, 2, 3), t1.bb, (4, 3), (4, 0, 1, 2))
    .set 83 (.ein [(56, [0, 1, 2, 3]), (3, [4, 3])] [4, 0, 1, 2]) 1 1,
    -- 510: tmp38 = einsum(t1.aa, (0, 1), l2.abab, (1, 2, 3, 4), (3, 0, 4, 2))
    .set 84 (.ein [(5, [0, 1]), (9, [1, 2, 3, 4])] [3, 0, 4, 2]) 1 1,
    -- 511: tmp43 = np.copy(tmp40) * 0.5
    .set 85 (.cp 58) 1 2,
    -- 512: tmp43 += tmp41
    .add 85 (.cp 59) 1 1,
    -- 513: tmp43 += tmp42 * 0.5
    .add 85 (.cp 57) 1 2,
    -- 514: tmp70 = einsum(t2.abab, (0, 1, 2, 3), l2.abab, (2, 3, 4, 5), (4, 0, 5, 1))
    .set 86 (.ein [(8, [0, 1, 2, 3]), (9, [2, 3, 4, 5])] [4, 0, 5, 1]) 1 1,
    -- 515: tmp71 = einsum(tmp48, (0, 1, 2, 3), t1.aa, (4, 3), (0, 4, 1, 2))
    .set 87 (.ein [(60, [0, 1, 2, 3]), (5, [4, 3])] [0, 4, 1, 2]) 1 1,
    -- 516: tmp12 = einsum(v.aabb.ooov, (0, 1, 2, 3), t1.bb, (4, 3), (0, 1, 4, 2))
    .set 88 (.ein [(24, [0, 1, 2, 3]), (3, [4, 3])] [0, 1, 4, 2]) 1 1,
    -- 517: tmp13 = einsum(t2.abab, (0, 1, 2, 3), v.aabb.ovov, (4, 2, 5, 3), (0, 4, 1, 5))
    .set 89 (.ein [(8, [0, 1, 2, 3]), (2, [4, 2, 5, 3])] [0, 4, 1, 5]) 1 1,
    -- 518: tmp15 = einsum(t1.aa, (0, 1), tmp14, (2, 3, 4, 1), (0, 2, 3, 4))
    .set 90 (.ein [(5, [0, 1]), (61, [2, 3, 4, 1])] [0, 2, 3, 4]) 1 1,
    -- 519: tmp4 = einsum(t1.aa, (0, 1), v.aabb.ovov, (2, 1, 3, 4), (0, 2, 3, 4))
    .set 91 (.ein [(5, [0, 1]), (2, [2, 1, 3, 4])] [0, 2, 3, 4]) 1 1,
    -- 520: tmp95 = einsum(v.aabb.vvov, (0, 1, 2, 3), t1.bb, (4, 3), (4, 2, 0, 1))
    .set 92 (.ein [(17, [0, 1, 2, 3]), (3, [4, 3])] [4, 2, 0, 1]) 1 1,
    -- 521: tmp21 = einsum(t1.aa, (0, 1), tmp0, (2, 3, 4, 1), (0, 2, 3, 4))
    .set 93 (.ein [(5, [0, 1]), (62, [2, 3, 4, 1])] [0, 2, 3, 4]) 1 1,
    -- 522: tmp22 = einsum(t1.aa, (0, 1), v.aaaa.ooov, (2, 3, 4, 1), (0, 2, 3, 4))
    .set 94 (.ein [(5, [0, 1]), (21, [2, 3, 4, 1])] [0, 2, 3, 4]) 1 1,
    -- 523: tmp66 = einsum(tmp36, (0, 1, 2, 3), t1.aa, (4, 3), (1, 0, 2, 4))
    .set 95 (.ein [(63, [0, 1, 2, 3]), (5, [4, 3])] [1, 0, 2, 4]) 1 1,
    -- 524: tmp65 = einsum(t2.aaaa, (0, 1, 2, 3), l2.aaaa, (2, 3, 4, 5), (4, 5, 0, 1))
    .set 96 (.ein [(14, [0, 1, 2, 3]), (13, [2, 3, 4, 5])] [4, 5, 0, 1]) 1 1,
    -- 525: tmp105 = einsum(t1.aa, (0, 1), v.aabb.ovoo, (0, 1, 2, 3), (2, 3))
    .set 97 (.ein [(5, [0, 1]), (15, [0, 1, 2, 3])] [2, 3]) 1 1,
    -- 526: tmp188 = np.copy(f.bb.ov)
    .set 98 (.cp 20) 1 1,
    -- 527: tmp188 += tmp91
    .add 98 (.cp 46) 1 1,
    -- 528: tmp188 += tmp187 * -1
    .add 98 (.cp 64) (-1) 1,
    -- 529: del tmp187
    .del 64,
    -- 530: tmp209 = np.copy(v.bbbb.ooov)
    .set 99 (.cp 18) 1 1,
    -- 531: tmp209 += np.transpose(v.bbbb.ovoo, (0, 2, 3, 1)) * -1
    .add 99 (.tr 19 [0, 2, 3, 1]) (-1) 1,
    -- 532: tmp214 = np.copy(v.bbbb.ovvv) * -1
    .set 100 (.cp 4) (-1) 1,
    -- 533: tmp214 += np.transpose(v.bbbb.ovvv, (0, 2, 3, 1))
    .add 100 (.tr 4 [0, 2, 3, 1]) 1 1,
    -- 534: tmp206 = np.copy(np.transpose(v.bbbb.ovov, (0, 2, 3, 1)))
    .set 101 (.tr 0 [0, 2, 3, 1]) 1 1,
    -- 535: tmp206 += v.bbbb.oovv * -1
    .add 101 (.cp 25) (-1) 1,
    -- 536: tmp206 += np.transpose(tmp205, (1, 0, 3, 2)) * -1
    .add 101 (.tr 65 [1, 0, 3, 2]) (-1) 1,
    -- 537: del tmp205
    .del 65,
    -- 538: tmp104 = np.copy(v.bbbb.ovvv)
    .set 102 (.cp 4) 1 1,
    -- 539: tmp104 += np.transpose(v.bbbb.ovvv, (0, 2, 3, 1)) * -1
    .add 102 (.tr 4 [0, 2, 3, 1]) (-1) 1,
    -- 540: tmp120 = einsum(t1.bb, (0, 1), tmp50, (2, 3, 4, 1), (3, 2, 4, 0))
    .set 103 (.ein [(3, [0, 1]), (66, [2, 3, 4, 1])] [3, 2, 4, 0]) 1 1,
    -- 541: tmp219 = np.copy(f.bb.vv)
    .set 104 (.cp 26) 1 1,
    -- 542: tmp219 += np.transpose(tmp127, (1, 0))
    .add 104 (.tr 67 [1, 0]) 1 1,
    -- 543: tmp219 += np.transpose(tmp218, (1, 0)) * -1
    .add 104 (.tr 68 [1, 0]) (-1) 1,
    -- 544: del tmp218
    .del 68,
    -- 545: tmp177 = einsum(t1.bb, (0, 1), v.bbbb.ovov, (2, 3, 0, 1), (2, 3))
    .set 105 (.ein [(3, [0, 1]), (0, [2, 3, 0, 1])] [2, 3]) 1 1,
    -- 546: tmp176 = np.copy(np.transpose(v.aabb.ovov, (0, 2, 1, 3)))
    .set 106 (.tr 2 [0, 2, 1, 3]) 1 1,
    -- 547: tmp176 += tmp175
    .add 106 (.cp 69) 1 1,
    -- 548: tmp194 = np.copy(np.transpose(v.bbbb.ooov, (0, 2, 1, 3)))
    .set 107 (.tr 18 [0, 2, 1, 3]) 1 1,
    -- 549: tmp194 += tmp89
    .add 107 (.cp 56) 1 1,
    -- 550: tmp180 = einsum(t1.bb, (0, 1), tmp106, (0, 2, 3, 1), (2, 3))
    .set 108 (.ein [(3, [0, 1]), (70, [0, 2, 3, 1])] [2, 3]) 1 1,
    -- 551: tmp181 = einsum(tmp94, (0, 1), t1.bb, (2, 1), (2, 0))
    .set 109 (.ein [(71, [0, 1]), (3, [2, 1])] [2, 0]) 1 1,
    -- 552: tmp29 = np.copy(v.aaaa.ovvv) * -1
    .set 110 (.cp 6) (-1) 1,
    -- 553: tmp29 += np.transpose(v.aaaa.ovvv, (0, 2, 1, 3))
    .add 110 (.tr 6 [0, 2, 1, 3]) 1 1,
    -- 554: tmp140 = einsum(v.aaaa.ovov, (0, 1, 2, 3), t1.aa, (2, 3), (0, 1))
    .set 111 (.ein [(1, [0, 1, 2, 3]), (5, [2, 3])] [0, 1]) 1 1,
    -- 555: tmp86 = einsum(t1.aa, (0, 1), tmp85, (0, 2, 1, 3), (2, 3))
    .set 112 (.ein [(5, [0, 1]), (72, [0, 2, 1, 3])] [2, 3]) 1 1,
    -- 556: del tmp85
    .del 72,
    -- 557: tmp173 = np.copy(v.bbbb.ovvv) * -1
    .set 113 (.cp 4) (-1) 1,
    -- 558: tmp173 += np.transpose(v.bbbb.ovvv, (0, 2, 1, 3))
    .add 113 (.tr 4 [0, 2, 1, 3]) 1 1,
    -- 559: tmp149 = einsum(tmp148, (0, 1, 2, 3), t1.aa, (2, 3), (0, 1))
    .set 114 (.ein [(73, [0, 1, 2, 3]), (5, [2, 3])] [0, 1]) 1 1,
    -- 560: del tmp148
    .del 73,
    -- 561: tmp153 = einsum(t1.aa, (0, 1), tmp152, (2, 1), (2, 0))
    .set 115 (.ein [(5, [0, 1]), (74, [2, 1])] [2, 0]) 1 1,
    -- 562: tmp59 = einsum(v.aabb.ooov, (0, 1, 2, 3), t1.bb, (2, 3), (0, 1))
    .set 116 (.ein [(24, [0, 1, 2, 3]), (3, [2, 3])] [0, 1]) 1 1,
    -- 563: tmp3 = np.copy(np.transpose(v.aabb.ovoo, (0, 2, 3, 1)))
    .set 117 (.tr 15 [0, 2, 3, 1]) 1 1,
    -- 564: tmp3 += np.transpose(tmp2, (0, 2, 1, 3))
    .add 117 (.tr 42 [0, 2, 1, 3]) 1 1,
    -- 565: tmp163 = np.copy(f.aa.vv)
    .set 118 (.cp 27) 1 1,
    -- 566: tmp163 += np.transpose(tmp84, (1, 0))
    .add 118 (.tr 75 [1, 0]) 1 1,
    -- 567: tmp163 += tmp162 * -1
    .add 118 (.cp 76) (-1) 1,
    -- 568: del tmp162
    .del 76,
    -- 569: tmp144 = np.copy(np.transpose(v.aaaa.ovov, (0, 2, 3, 1)))
    .set 119 (.tr 1 [0, 2, 3, 1]) 1 1,
    -- 570: tmp144 += v.aaaa.oovv * -1
    .add 119 (.cp 28) (-1) 1,
    -- 571: tmp144 += np.transpose(tmp143, (1, 0, 3, 2)) * -1
    .add 119 (.tr 77 [1, 0, 3, 2]) (-1) 1,
    -- 572: del tmp143
    .del 77,
    -- 573: tmp146 = np.copy(np.transpose(v.aabb.ovov, (0, 2, 1, 3)))
    .set 120 (.tr 2 [0, 2, 1, 3]) 1 1,
    -- 574: tmp146 += tmp10
    .add 120 (.cp 78) 1 1,
    -- 575: tmp62 = einsum(t1.aa, (0, 1), tmp9, (2, 1), (0, 2))
    .set 121 (.ein [(5, [0, 1]), (79, [2, 1])] [0, 2]) 1 1,
    -- 576: tmp61 = einsum(tmp60, (0, 1, 2, 3), t1.aa, (2, 3), (0, 1))
    .set 122 (.ein [(80, [0, 1, 2, 3]), (5, [2, 3])] [0, 1]) 1 1,
    -- 577: del tmp60
    .del 80,
    -- 578: tmp68 = np.copy(v.aaaa.ovvv)
    .set 123 (.cp 6) 1 1,
    -- 579: tmp68 += np.transpose(v.aaaa.ovvv, (0, 2, 3, 1)) * -1
    .add 123 (.tr 6 [0, 2, 3, 1]) (-1) 1,
    -- 580: tmp131 = np.copy(np.transpose(v.aaaa.ooov, (0, 2, 1, 3)))
    .set 124 (.tr 21 [0, 2, 1, 3]) 1 1,
    -- 581: tmp131 += tmp0
    .add 124 (.cp 62) 1 1,
    -- 582: tmp31 = einsum(t2.abab, (0, 1, 2, 3), l2.abab, (2, 4, 0, 1), (4, 3))
    .set 125 (.ein [(8, [0, 1, 2, 3]), (9, [2, 4, 0, 1])] [4, 3]) 1 1,
    -- 583: tmp30 = einsum(l1.bb, (0, 1), t1.bb, (1, 2), (0, 2))
    .set 126 (.ein [(7, [0, 1]), (3, [1, 2])] [0, 2]) 1 1,
    -- 584: tmp32 = einsum(l2.bbbb, (0, 1, 2, 3), t2.bbbb, (2, 3, 4, 1), (0, 4))
    .set 127 (.ein [(11, [0, 1, 2, 3]), (10, [2, 3, 4, 1])] [0, 4]) 1 1,
    -- 585: tmp51 = einsum(t2.bbbb, (0, 1, 2, 3), tmp50, (1, 0, 4, 3), (4, 2))
    .set 128 (.ein [(10, [0, 1, 2, 3]), (66, [1, 0, 4, 3])] [4, 2]) 1 1,
    -- 586: tmp46 = einsum(t2.abab, (0, 1, 2, 3), l1.aa, (2, 0), (1, 3))
    .set 129 (.ein [(8, [0, 1, 2, 3]), (12, [2, 0])] [1, 3]) 1 1,
    -- 587: tmp56 = einsum(tmp55, (0, 1), t1.bb, (0, 2), (1, 2))
    .set 130 (.ein [(81, [0, 1]), (3, [0, 2])] [1, 2]) 1 1,
    -- 588: tmp49 = einsum(tmp48, (0, 1, 2, 3), t2.abab, (0, 1, 3, 4), (2, 4))
    .set 131 (.ein [(60, [0, 1, 2, 3]), (8, [0, 1, 3, 4])] [2, 4]) 1 1,
    -- 589: tmp47 = einsum(t2.bbbb, (0, 1, 2, 3), l1.bb, (3, 1), (0, 2))
    .set 132 (.ein [(10, [0, 1, 2, 3]), (7, [3, 1])] [0, 2]) 1 1,
    -- 590: tmp128 = np.copy(v.bbbb.ovvv) * -1
    .set 133 (.cp 4) (-1) 1,
    -- 591: tmp128 += np.transpose(v.bbbb.ovvv, (0, 2, 1, 3))
    .add 133 (.tr 4 [0, 2, 1, 3]) 1 1,
    -- 592: tmp112 = einsum(t2.abab, (0, 1, 2, 3), l2.abab, (2, 4, 0, 5), (5, 1, 4, 3))
    .set 134 (.ein [(8, [0, 1, 2, 3]), (9, [2, 4, 0, 5])] [5, 1, 4, 3]) 1 1,
    -- 593: tmp113 = einsum(t2.bbbb, (0, 1, 2, 3), l2.bbbb, (4, 3, 5, 1), (5, 0, 4, 2))
    .set 135 (.ein [(10, [0, 1, 2, 3]), (11, [4, 3, 5, 1])] [5, 0, 4, 2]) 1 1,
    -- 594: tmp102 = np.copy(v.bbbb.oooo)
    .set 136 (.cp 29) 1 1,
    -- 595: tmp102 += einsum(t2.bbbb, (0, 1, 2, 3), v.bbbb.ovov, (4, 3, 5, 2), (4, 0, 5, 1)) * -1
    .add 136 (.ein [(10, [0, 1, 2, 3]), (0, [4, 3, 5, 2])] [4, 0, 5, 1]) (-1) 1,
    -- 596: tmp102 += np.transpose(tmp100, (3, 1, 2, 0))
    .add 136 (.tr 83 [3, 1, 2, 0]) 1 1,
    -- 597: tmp102 += np.transpose(tmp101, (2, 1, 3, 0))
    .add 136 (.tr 82 [2, 1, 3, 0]) 1 1,
    -- 598: tmp102 += np.transpose(tmp101, (3, 2, 1, 0)) * -1
    .add 136 (.tr 82 [3, 2, 1, 0]) (-1) 1,
    -- 599: tmp99 = np.copy(np.transpose(v.bbbb.ovov, (0, 2, 1, 3)))
    .set 137 (.tr 0 [0, 2, 1, 3]) 1 1,
    -- 600: tmp99 += v.bbbb.oovv * -1
    .add 137 (.cp 25) (-1) 1,
    -- 601: tmp99 += einsum(t1.bb, (0, 1), v.bbbb.ovvv, (2, 3, 4, 1), (0, 2, 4, 3))
    .add 137 (.ein [(3, [0, 1]), (4, [2, 3, 4, 1])] [0, 2, 4, 3]) 1 1,
    -- 602: tmp98 = np.copy(v.bbbb.ooov) * -1
    .set 138 (.cp 18) (-1) 1,
    -- 603: tmp98 += np.transpose(v.bbbb.ooov, (0, 2, 1, 3))
    .add 138 (.tr 18 [0, 2, 1, 3]) 1 1,
    -- 604: tmp98 += tmp89
    .add 138 (.cp 56) 1 1,
    -- 605: tmp98 += np.transpose(tmp89, (0, 2, 1, 3)) * -1
    .add 138 (.tr 56 [0, 2, 1, 3]) (-1) 1,
    -- 606: tmp119 = einsum(t2.bbbb, (0, 1, 2, 3), tmp50, (4, 1, 5, 3), (4, 5, 0, 2)) * -1
    .set 139 (.ein [(10, [0, 1, 2, 3]), (66, [4, 1, 5, 3])] [4, 5, 0, 2]) (-1) 1,
    -- 607: tmp118 = einsum(tmp48, (0, 1, 2, 3), t2.abab, (0, 4, 3, 5), (1, 2, 4, 5))
    .set 140 (.ein [(60, [0, 1, 2, 3]), (8, [0, 4, 3, 5])] [1, 2, 4, 5]) 1 1,
    -- 608: tmp27 = einsum(t2.abab, (0, 1, 2, 3), l2.abab, (4, 3, 0, 1), (4, 2))
    .set 141 (.ein [(8, [0, 1, 2, 3]), (9, [4, 3, 0, 1])] [4, 2]) 1 1,
    -- 609: tmp25 = einsum(l1.aa, (0, 1), t1.aa, (1, 2), (0, 2))
    .set 142 (.ein [(12, [0, 1]), (5, [1, 2])] [0, 2]) 1 1,
    -- 610: tmp26 = einsum(t2.aaaa, (0, 1, 2, 3), l2.aaaa, (4, 3, 0, 1), (4, 2))
    .set 143 (.ein [(14, [0, 1, 2, 3]), (13, [4, 3, 0, 1])] [4, 2]) 1 1,
    -- 611: tmp39 = einsum(t2.abab, (0, 1, 2, 3), tmp38, (0, 4, 1, 3), (4, 2))
    .set 144 (.ein [(8, [0, 1, 2, 3]), (84, [0, 4, 1, 3])] [4, 2]) 1 1,
    -- 612: tmp35 = einsum(t2.abab, (0, 1, 2, 3), l1.bb, (3, 1), (0, 2))
    .set 145 (.ein [(8, [0, 1, 2, 3]), (7, [3, 1])] [0, 2]) 1 1,
    -- 613: tmp44 = einsum(tmp43, (0, 1), t1.aa, (0, 2), (1, 2)) * 2
    .set 146 (.ein [(85, [0, 1]), (5, [0, 2])] [1, 2]) 2 1,
    -- 614: tmp34 = einsum(t2.aaaa, (0, 1, 2, 3), l1.aa, (3, 1), (0, 2))
    .set 147 (.ein [(14, [0, 1, 2, 3]), (12, [3, 1])] [0, 2]) 1 1,
    -- 615: tmp37 = einsum(tmp36, (0, 1, 2, 3), t2.aaaa, (1, 0, 4, 3), (2, 4))
    .set 148 (.ein [(63, [0, 1, 2, 3]), (14, [1, 0, 4, 3])] [2, 4]) 1 1,
    -- 616: tmp122 = einsum(t2.bbbb, (0, 1, 2, 3), l2.bbbb, (2, 3, 4, 5), (4, 5, 0, 1))
    .set 149 (.ein [(10, [0, 1, 2, 3]), (11, [2, 3, 4, 5])] [4, 5, 0, 1]) 1 1,
    -- 617: tmp72 = np.copy(tmp70)
    .set 150 (.cp 86) 1 1,
    -- 618: tmp72 += tmp71
    .add 150 (.cp 87) 1 1,
    -- 619: tmp16 = np.copy(v.aabb.oooo)
    .set 151 (.cp 30) 1 1,
    -- 620: tmp16 += np.transpose(tmp12, (1, 0, 3, 2))
    .add 151 (.tr 88 [1, 0, 3, 2]) 1 1,
    -- 621: tmp16 += np.transpose(tmp13, (1, 0, 3, 2))
    .add 151 (.tr 89 [1, 0, 3, 2]) 1 1,
    -- 622: del tmp13
    .del 89,
    -- 623: tmp16 += np.transpose(tmp15, (1, 0, 3, 2))
    .add 151 (.tr 90 [1, 0, 3, 2]) 1 1,
    -- 624: del tmp15
    .del 90,
    -- 625: tmp5 = np.copy(v.aabb.ooov)
    .set 152 (.cp 24) 1 1,
    -- 626: tmp5 += np.transpose(tmp4, (1, 0, 2, 3))
    .add 152 (.tr 91 [1, 0, 2, 3]) 1 1,
    -- 627: tmp96 = np.copy(np.transpose(v.aabb.vvoo, (2, 3, 0, 1)))
    .set 153 (.tr 31 [2, 3, 0, 1]) 1 1,
    -- 628: tmp96 += np.transpose(tmp95, (1, 0, 3, 2))
    .add 153 (.tr 92 [1, 0, 3, 2]) 1 1,
    -- 629: tmp90 = np.copy(v.bbbb.ooov)
    .set 154 (.cp 18) 1 1,
    -- 630: tmp90 += np.transpose(v.bbbb.ovoo, (0, 2, 3, 1)) * -1
    .add 154 (.tr 19 [0, 2, 3, 1]) (-1) 1,
    -- 631: tmp90 += np.transpose(tmp89, (1, 0, 2, 3)) * -1
    .add 154 (.tr 56 [1, 0, 2, 3]) (-1) 1,
    -- 632: tmp90 += np.transpose(tmp89, (2, 0, 1, 3))
    .add 154 (.tr 56 [2, 0, 1, 3]) 1 1,
    -- 633: tmp74 = einsum(t2.aaaa, (0, 1, 2, 3), tmp36, (4, 1, 5, 3), (4, 5, 0, 2)) * -1
    .set 155 (.ein [(14, [0, 1, 2, 3]), (63, [4, 1, 5, 3])] [4, 5, 0, 2]) (-1) 1,
    -- 634: tmp75 = einsum(t2.abab, (0, 1, 2, 3), tmp38, (4, 5, 1, 3), (4, 5, 0, 2))
    .set 156 (.ein [(8, [0, 1, 2, 3]), (84, [4, 5, 1, 3])] [4, 5, 0, 2]) 1 1,
    -- 635: tmp11 = np.copy(np.transpose(v.aabb.ovov, (0, 2, 1, 3)))
    .set 157 (.tr 2 [0, 2, 1, 3]) 1 1,
    -- 636: tmp11 += tmp10
    .add 157 (.cp 78) 1 1,
    -- 637: del tmp10
    .del 78,
    -- 638: tmp1 = np.copy(v.aaaa.ooov)
    .set 158 (.cp 21) 1 1,
    -- 639: tmp1 += np.transpose(v.aaaa.ovoo, (0, 2, 3, 1)) * -1
    .add 158 (.tr 22 [0, 2, 3, 1]) (-1) 1,
    -- 640: tmp1 += np.transpose(tmp0, (1, 0, 2, 3)) * -1
    .add 158 (.tr 62 [1, 0, 2, 3]) (-1) 1,
    -- 641: tmp1 += np.transpose(tmp0, (2, 0, 1, 3))
    .add 158 (.tr 62 [2, 0, 1, 3]) 1 1,
    -- 642: tmp23 = np.copy(v.aaaa.oooo)
    .set 159 (.cp 32) 1 1,
    -- 643: tmp23 += einsum(v.aaaa.ovov, (0, 1, 2, 3), t2.aaaa, (4, 5, 3, 1), (0, 4, 2, 5)) * -1
    .add 159 (.ein [(1, [0, 1, 2, 3]), (14, [4, 5, 3, 1])] [0, 4, 2, 5]) (-1) 1,
    -- 644: tmp23 += np.transpose(tmp21, (3, 1, 2, 0))
    .add 159 (.tr 93 [3, 1, 2, 0]) 1 1,
    -- 645: tmp23 += np.transpose(tmp22, (2, 1, 3, 0))
    .add 159 (.tr 94 [2, 1, 3, 0]) 1 1,
    -- 646: tmp23 += np.transpose(tmp22, (3, 2, 1, 0)) * -1
    .add 159 (.tr 94 [3, 2, 1, 0]) (-1) 1,
    -- 647: tmp18 = np.copy(v.aaaa.ooov) * -1
    .set 160 (.cp 21) (-1) 1,
    -- 648: tmp18 += np.transpose(v.aaaa.ooov, (0, 2, 1, 3))
    .add 160 (.tr 21 [0, 2, 1, 3]) 1 1,
    -- 649: tmp18 += tmp0
    .add 160 (.cp 62) 1 1,
    -- 650: tmp18 += np.transpose(tmp0, (0, 2, 1, 3)) * -1
    .add 160 (.tr 62 [0, 2, 1, 3]) (-1) 1,
    -- 651: tmp20 = np.copy(np.transpose(v.aaaa.ovov, (0, 2, 1, 3)))
    .set 161 (.tr 1 [0, 2, 1, 3]) 1 1,
    -- 652: tmp20 += v.aaaa.oovv * -1
    .add 161 (.cp 28) (-1) 1,
    -- 653: tmp20 += einsum(v.aaaa.ovvv, (0, 1, 2, 3), t1.aa, (4, 3), (4, 0, 2, 1))
    .add 161 (.ein [(6, [0, 1, 2, 3]), (5, [4, 3])] [4, 0, 2, 1]) 1 1,
    -- 654: tmp19 = np.copy(v.aabb.ooov)
    .set 162 (.cp 24) 1 1,
    -- 655: tmp19 += tmp4
    .add 162 (.cp 91) 1 1,
    -- 656: tmp76 = np.copy(np.transpose(tmp65, (1, 0, 3, 2)))
    .set 163 (.tr 96 [1, 0, 3, 2]) 1 1,
    -- 657: tmp76 += np.transpose(tmp66, (0, 1, 3, 2)) * -1
    .add 163 (.tr 95 [0, 1, 3, 2]) (-1) 1,
    -- 658: tmp222 = np.copy(v.bbbb.oooo)
    .set 164 (.cp 29) 1 1,
    -- 659: tmp222 += np.transpose(tmp100, (0, 3, 1, 2)) * -1
    .add 164 (.tr 83 [0, 3, 1, 2]) (-1) 1,
    -- 660: del tmp100
    .del 83,
    -- 661: tmp198 = einsum(tmp4, (0, 1, 2, 3), tmp38, (0, 1, 4, 5), (4, 2, 5, 3))
    .set 165 (.ein [(91, [0, 1, 2, 3]), (84, [0, 1, 4, 5])] [4, 2, 5, 3]) 1 1,
    -- 662: tmp225 = einsum(tmp50, (0, 1, 2, 3), tmp89, (1, 2, 4, 5), (0, 4, 3, 5))
    .set 166 (.ein [(66, [0, 1, 2, 3]), (56, [1, 2, 4, 5])] [0, 4, 3, 5]) 1 1,
    -- 663: tmp210 = np.copy(f.bb.oo)
    .set 167 (.cp 33) 1 1,
    -- 664: tmp210 += np.transpose(tmp105, (1, 0))
    .add 167 (.tr 97 [1, 0]) 1 1,
    -- 665: tmp210 += einsum(t1.bb, (0, 1), tmp209, (0, 2, 3, 1), (2, 3)) * -1
    .add 167 (.ein [(3, [0, 1]), (99, [0, 2, 3, 1])] [2, 3]) (-1) 1,
    -- 666: del tmp209
    .del 99,
    -- 667: tmp210 += einsum(tmp188, (0, 1), t1.bb, (2, 1), (2, 0))
    .add 167 (.ein [(98, [0, 1]), (3, [2, 1])] [2, 0]) 1 1,
    -- 668: tmp213 = einsum(tmp50, (0, 1, 2, 3), v.bbbb.ovvv, (2, 4, 5, 3), (1, 0, 4, 5))
    .set 168 (.ein [(66, [0, 1, 2, 3]), (4, [2, 4, 5, 3])] [1, 0, 4, 5]) 1 1,
    -- 669: tmp215 = np.copy(f.bb.vv)
    .set 169 (.cp 26) 1 1,
    -- 670: tmp215 += np.transpose(tmp127, (1, 0))
    .add 169 (.tr 67 [1, 0]) 1 1,
    -- 671: tmp215 += einsum(tmp214, (0, 1, 2, 3), t1.bb, (0, 1), (3, 2)) * -1
    .add 169 (.ein [(100, [0, 1, 2, 3]), (3, [0, 1])] [3, 2]) (-1) 1,
    -- 672: del tmp214
    .del 100,
    -- 673: tmp207 = einsum(l2.bbbb, (0, 1, 2, 3), tmp206, (3, 4, 5, 1), (4, 2, 5, 0))
    .set 170 (.ein [(11, [0, 1, 2, 3]), (101, [3, 4, 5, 1])] [4, 2, 5, 0]) 1 1,
    -- 674: del tmp206
    .del 101,
    -- 675: tmp212 = einsum(l2.bbbb, (0, 1, 2, 3), v.bbbb.vvvv, (4, 1, 5, 0), (2, 3, 4, 5)) * -1
    .set 171 (.ein [(11, [0, 1, 2, 3]), (34, [4, 1, 5, 0])] [2, 3, 4, 5]) (-1) 1,
    -- 676: tmp201 = np.copy(np.transpose(v.bbbb.ovov, (0, 2, 3, 1)))
    .set 172 (.tr 0 [0, 2, 3, 1]) 1 1,
    -- 677: tmp201 += v.bbbb.oovv * -1
    .add 172 (.cp 25) (-1) 1,
    -- 678: tmp201 += einsum(t1.bb, (0, 1), tmp104, (2, 1, 3, 4), (0, 2, 4, 3)) * -1
    .add 172 (.ein [(3, [0, 1]), (102, [2, 1, 3, 4])] [0, 2, 4, 3]) (-1) 1,
    -- 679: tmp224 = einsum(v.bbbb.ooov, (0, 1, 2, 3), tmp50, (1, 4, 2, 5), (4, 0, 5, 3)) * -1
    .set 173 (.ein [(18, [0, 1, 2, 3]), (66, [1, 4, 2, 5])] [4, 0, 5, 3]) (-1) 1,
    -- 680: tmp211 = einsum(tmp120, (0, 1, 2, 3), v.bbbb.ovov, (3, 4, 2, 5), (0, 1, 5, 4))
    .set 174 (.ein [(103, [0, 1, 2, 3]), (0, [3, 4, 2, 5])] [0, 1, 5, 4]) 1 1,
    -- 681: tmp199 = einsum(v.bbbb.ovoo, (0, 1, 2, 3), tmp50, (3, 4, 2, 5), (4, 0, 5, 1)) * -1
    .set 175 (.ein [(19, [0, 1, 2, 3]), (66, [3, 4, 2, 5])] [4, 0, 5, 1]) (-1) 1,
    -- 682: tmp220 = einsum(tmp219, (0, 1), l2.bbbb, (2, 1, 3, 4), (3, 4, 0, 2)) * -1
    .set 176 (.ein [(104, [0, 1]), (11, [2, 1, 3, 4])] [3, 4, 0, 2]) (-1) 1,
    -- 683: del tmp219
    .del 104,
    -- 684: tmp203 = np.copy(f.bb.ov)
    .set 177 (.cp 20) 1 1,
    -- 685: tmp203 += tmp91
    .add 177 (.cp 46) 1 1,
    -- 686: tmp203 += tmp177
    .add 177 (.cp 105) 1 1,
    -- 687: tmp208 = einsum(tmp176, (0, 1, 2, 3), l2.abab, (2, 4, 0, 5), (1, 5, 3, 4))
    .set 178 (.ein [(106, [0, 1, 2, 3]), (9, [2, 4, 0, 5])] [1, 5, 3, 4]) 1 1,
    -- 688: tmp202 = np.copy(np.transpose(v.aabb.ovov, (0, 2, 1, 3)))
    .set 179 (.tr 2 [0, 2, 1, 3]) 1 1,
    -- 689: tmp202 += tmp175
    .add 179 (.cp 69) 1 1,
    -- 690: del tmp175
    .del 69,
    -- 691: tmp223 = np.copy(v.bbbb.ooov)
    .set 180 (.cp 18) 1 1,
    -- 692: tmp223 += np.transpose(tmp89, (0, 2, 1, 3))
    .add 180 (.tr 56 [0, 2, 1, 3]) 1 1,
    -- 693: tmp221 = einsum(tmp101, (0, 1, 2, 3), l2.bbbb, (4, 5, 0, 1), (2, 3, 4, 5))
    .set 181 (.ein [(82, [0, 1, 2, 3]), (11, [4, 5, 0, 1])] [2, 3, 4, 5]) 1 1,
    -- 694: del tmp101
    .del 82,
    -- 695: tmp197 = einsum(v.bbbb.ovvv, (0, 1, 2, 3), l1.bb, (3, 4), (4, 0, 1, 2))
    .set 182 (.ein [(4, [0, 1, 2, 3]), (7, [3, 4])] [4, 0, 1, 2]) 1 1,
    -- 696: tmp216 = einsum(tmp188, (0, 1), tmp50, (2, 3, 0, 4), (2, 3, 1, 4))
    .set 183 (.ein [(98, [0, 1]), (66, [2, 3, 0, 4])] [2, 3, 1, 4]) 1 1,
    -- 697: tmp226 = einsum(v.bbbb.ovov, (0, 1, 2, 3), tmp52, (4, 2), (4, 0, 1, 3))
    .set 184 (.ein [(0, [0, 1, 2, 3]), (53, [4, 2])] [4, 0, 1, 3]) 1 1,
    -- 698: tmp178 = np.copy(f.bb.ov)
    .set 185 (.cp 20) 1 1,
    -- 699: tmp178 += tmp91
    .add 185 (.cp 46) 1 1,
    -- 700: del tmp91
    .del 46,
    -- 701: tmp178 += tmp177
    .add 185 (.cp 105) 1 1,
    -- 702: del tmp177
    .del 105,
    -- 703: tmp195 = einsum(l1.bb, (0, 1), tmp194, (1, 2, 3, 4), (2, 3, 4, 0))
    .set 186 (.ein [(7, [0, 1]), (107, [1, 2, 3, 4])] [2, 3, 4, 0]) 1 1,
    -- 704: del tmp194
    .del 107,
    -- 705: tmp182 = np.copy(f.bb.oo)
    .set 187 (.cp 33) 1 1,
    -- 706: tmp182 += np.transpose(tmp105, (1, 0))
    .add 187 (.tr 97 [1, 0]) 1 1,
    -- 707: tmp182 += tmp180 * -1
    .add 187 (.cp 108) (-1) 1,
    -- 708: del tmp180
    .del 108,
    -- 709: tmp182 += tmp181
    .add 187 (.cp 109) 1 1,
    -- 710: del tmp181
    .del 109,
    -- 711: tmp193 = np.copy(v.bbbb.ooov)
    .set 188 (.cp 18) 1 1,
    -- 712: tmp193 += np.transpose(tmp89, (0, 2, 1, 3))
    .add 188 (.tr 56 [0, 2, 1, 3]) 1 1,
    -- 713: tmp196 = einsum(tmp89, (0, 1, 2, 3), tmp50, (0, 4, 2, 5), (4, 1, 5, 3)) * -1
    .set 189 (.ein [(56, [0, 1, 2, 3]), (66, [0, 4, 2, 5])] [4, 1, 5, 3]) (-1) 1,
    -- 714: tmp200 = einsum(tmp38, (0, 1, 2, 3), v.aabb.ooov, (1, 0, 4, 5), (2, 4, 3, 5))
    .set 190 (.ein [(84, [0, 1, 2, 3]), (24, [1, 0, 4, 5])] [2, 4, 3, 5]) 1 1,
    -- 715: tmp192 = einsum(t1.bb, (0, 1), v.bbbb.ovov, (2, 1, 0, 3), (2, 3))
    .set 191 (.ein [(3, [0, 1]), (0, [2, 1, 0, 3])] [2, 3]) 1 1,
    -- 716: tmp168 = einsum(v.aaaa.ovov, (0, 1, 2, 3), t1.aa, (2, 1), (0, 3))
    .set 192 (.ein [(1, [0, 1, 2, 3]), (5, [2, 1])] [0, 3]) 1 1,
    -- 717: tmp172 = np.copy(np.transpose(v.aaaa.ovov, (0, 2, 1, 3)))
    .set 193 (.tr 1 [0, 2, 1, 3]) 1 1,
    -- 718: tmp172 += v.aaaa.oovv * -1
    .add 193 (.cp 28) (-1) 1,
    -- 719: tmp172 += einsum(tmp29, (0, 1, 2, 3), t1.aa, (4, 2), (4, 0, 3, 1)) * -1
    .add 193 (.ein [(110, [0, 1, 2, 3]), (5, [4, 2])] [4, 0, 3, 1]) (-1) 1,
    -- 720: tmp179 = np.copy(np.transpose(v.aabb.vvoo, (2, 3, 0, 1)))
    .set 194 (.tr 31 [2, 3, 0, 1]) 1 1,
    -- 721: tmp179 += np.transpose(tmp95, (0, 1, 3, 2))
    .add 194 (.tr 92 [0, 1, 3, 2]) 1 1,
    -- 722: del tmp95
    .del 92,
    -- 723: tmp155 = np.copy(f.aa.ov)
    .set 195 (.cp 23) 1 1,
    -- 724: tmp155 += tmp140
    .add 195 (.cp 111) 1 1,
    -- 725: tmp155 += tmp6
    .add 195 (.cp 48) 1 1,
    -- 726: tmp87 = np.copy(f.aa.vv)
    .set 196 (.cp 27) 1 1,
    -- 727: tmp87 += np.transpose(tmp84, (1, 0))
    .add 196 (.tr 75 [1, 0]) 1 1,
    -- 728: tmp87 += np.transpose(tmp86, (1, 0)) * -1
    .add 196 (.tr 112 [1, 0]) (-1) 1,
    -- 729: tmp183 = einsum(v.aabb.ovov, (0, 1, 2, 3), tmp71, (4, 0, 5, 2), (4, 5, 1, 3))
    .set 197 (.ein [(2, [0, 1, 2, 3]), (87, [4, 0, 5, 2])] [4, 5, 1, 3]) 1 1,
    -- 730: tmp185 = np.copy(f.bb.vv)
    .set 198 (.cp 26) 1 1,
    -- 731: tmp185 += np.transpose(tmp127, (1, 0))
    .add 198 (.tr 67 [1, 0]) 1 1,
    -- 732: tmp185 += einsum(tmp173, (0, 1, 2, 3), t1.bb, (0, 1), (3, 2)) * -1
    .add 198 (.ein [(113, [0, 1, 2, 3]), (3, [0, 1])] [3, 2]) (-1) 1,
    -- 733: tmp174 = np.copy(np.transpose(v.bbbb.ovov, (0, 2, 1, 3)))
    .set 199 (.tr 0 [0, 2, 1, 3]) 1 1,
    -- 734: tmp174 += v.bbbb.oovv * -1
    .add 199 (.cp 25) (-1) 1,
    -- 735: tmp174 += einsum(tmp173, (0, 1, 2, 3), t1.bb, (4, 2), (4, 0, 3, 1)) * -1
    .add 199 (.ein [(113, [0, 1, 2, 3]), (3, [4, 2])] [4, 0, 3, 1]) (-1) 1,
    -- 736: del tmp173
    .del 113,
    -- 737: tmp191 = np.copy(v.aabb.oovv)
    .set 200 (.cp 35) 1 1,
    -- 738: tmp191 += einsum(t1.aa, (0, 1), v.aabb.ovvv, (2, 1, 3, 4), (0, 2, 3, 4))
    .add 200 (.ein [(5, [0, 1]), (16, [2, 1, 3, 4])] [0, 2, 3, 4]) 1 1,
    -- 739: tmp154 = np.copy(f.aa.oo)
    .set 201 (.cp 36) 1 1,
    -- 740: tmp154 += np.transpose(tmp59, (1, 0))
    .add 201 (.tr 116 [1, 0]) 1 1,
    -- 741: tmp154 += np.transpose(tmp149, (1, 0)) * -1
    .add 201 (.tr 114 [1, 0]) (-1) 1,
    -- 742: del tmp149
    .del 114,
    -- 743: tmp154 += np.transpose(tmp153, (1, 0))
    .add 201 (.tr 115 [1, 0]) 1 1,
    -- 744: del tmp153
    .del 115,
    -- 745: tmp184 = einsum(l2.abab, (0, 1, 2, 3), v.aabb.vvvv, (4, 0, 5, 1), (2, 3, 4, 5))
    .set 202 (.ein [(9, [0, 1, 2, 3]), (37, [4, 0, 5, 1])] [2, 3, 4, 5]) 1 1,
    -- 746: tmp190 = np.copy(v.aabb.oooo)
    .set 203 (.cp 30) 1 1,
    -- 747: tmp190 += np.transpose(tmp12, (1, 0, 2, 3))
    .add 203 (.tr 88 [1, 0, 2, 3]) 1 1,
    -- 748: del tmp12
    .del 88,
    -- 749: tmp190 += einsum(t1.aa, (0, 1), tmp3, (2, 3, 4, 1), (0, 2, 4, 3))
    .add 203 (.ein [(5, [0, 1]), (117, [2, 3, 4, 1])] [0, 2, 4, 3]) 1 1,
    -- 750: tmp189 = np.copy(v.aabb.ooov)
    .set 204 (.cp 24) 1 1,
    -- 751: tmp189 += tmp4
    .add 204 (.cp 91) 1 1,
    -- 752: tmp164 = einsum(tmp163, (0, 1), l2.aaaa, (2, 1, 3, 4), (3, 4, 0, 2)) * -1
    .set 205 (.ein [(118, [0, 1]), (13, [2, 1, 3, 4])] [3, 4, 0, 2]) (-1) 1,
    -- 753: del tmp163
    .del 118,
    -- 754: tmp145 = einsum(l2.aaaa, (0, 1, 2, 3), tmp144, (3, 4, 5, 1), (4, 2, 5, 0))
    .set 206 (.ein [(13, [0, 1, 2, 3]), (119, [3, 4, 5, 1])] [4, 2, 5, 0]) 1 1,
    -- 755: del tmp144
    .del 119,
    -- 756: tmp147 = einsum(l2.abab, (0, 1, 2, 3), tmp146, (4, 3, 5, 1), (4, 2, 5, 0))
    .set 207 (.ein [(9, [0, 1, 2, 3]), (120, [4, 3, 5, 1])] [4, 2, 5, 0]) 1 1,
    -- 757: tmp139 = np.copy(f.aa.oo)
    .set 208 (.cp 36) 1 1,
    -- 758: tmp139 += np.transpose(tmp59, (1, 0))
    .add 208 (.tr 116 [1, 0]) 1 1,
    -- 759: tmp139 += np.transpose(tmp61, (1, 0)) * -1
    .add 208 (.tr 122 [1, 0]) (-1) 1,
    -- 760: tmp139 += tmp62
    .add 208 (.cp 121) 1 1,
    -- 761: tmp130 = np.copy(v.aaaa.ooov)
    .set 209 (.cp 21) 1 1,
    -- 762: tmp130 += np.transpose(tmp0, (0, 2, 1, 3))
    .add 209 (.tr 62 [0, 2, 1, 3]) 1 1,
    -- 763: tmp166 = np.copy(v.aaaa.oooo)
    .set 210 (.cp 32) 1 1,
    -- 764: tmp166 += np.transpose(tmp21, (0, 3, 1, 2)) * -1
    .add 210 (.tr 93 [0, 3, 1, 2]) (-1) 1,
    -- 765: del tmp21
    .del 93,
    -- 766: tmp135 = einsum(v.aabb.ovoo, (0, 1, 2, 3), tmp48, (4, 3, 2, 5), (4, 0, 5, 1))
    .set 211 (.ein [(15, [0, 1, 2, 3]), (60, [4, 3, 2, 5])] [4, 0, 5, 1]) 1 1,
    -- 767: tmp138 = np.copy(np.transpose(v.aaaa.ovov, (0, 2, 3, 1)))
    .set 212 (.tr 1 [0, 2, 3, 1]) 1 1,
    -- 768: tmp138 += v.aaaa.oovv * -1
    .add 212 (.cp 28) (-1) 1,
    -- 769: tmp138 += einsum(t1.aa, (0, 1), tmp68, (2, 1, 3, 4), (0, 2, 4, 3)) * -1
    .add 212 (.ein [(5, [0, 1]), (123, [2, 1, 3, 4])] [0, 2, 4, 3]) (-1) 1,
    -- 770: tmp136 = einsum(l1.aa, (0, 1), v.aaaa.ovvv, (2, 3, 4, 0), (1, 2, 3, 4))
    .set 213 (.ein [(12, [0, 1]), (6, [2, 3, 4, 0])] [1, 2, 3, 4]) 1 1,
    -- 771: tmp169 = einsum(v.aaaa.ovov, (0, 1, 2, 3), tmp40, (4, 2), (4, 0, 1, 3))
    .set 214 (.ein [(1, [0, 1, 2, 3]), (58, [4, 2])] [4, 0, 1, 3]) 1 1,
    -- 772: tmp134 = einsum(tmp48, (0, 1, 2, 3), tmp2, (4, 1, 2, 5), (0, 4, 3, 5))
    .set 215 (.ein [(60, [0, 1, 2, 3]), (42, [4, 1, 2, 5])] [0, 4, 3, 5]) 1 1,
    -- 773: tmp167 = np.copy(v.aaaa.ooov)
    .set 216 (.cp 21) 1 1,
    -- 774: tmp167 += np.transpose(tmp0, (0, 2, 1, 3))
    .add 216 (.tr 62 [0, 2, 1, 3]) 1 1,
    -- 775: tmp159 = np.copy(f.aa.vv)
    .set 217 (.cp 27) 1 1,
    -- 776: tmp159 += np.transpose(tmp84, (1, 0))
    .add 217 (.tr 75 [1, 0]) 1 1,
    -- 777: del tmp84
    .del 75,
    -- 778: tmp159 += tmp86 * -1
    .add 217 (.cp 112) (-1) 1,
    -- 779: del tmp86
    .del 112,
    -- 780: tmp158 = einsum(l2.aaaa, (0, 1, 2, 3), v.aaaa.vvvv, (4, 1, 5, 0), (2, 3, 4, 5)) * -1
    .set 218 (.ein [(13, [0, 1, 2, 3]), (38, [4, 1, 5, 0])] [2, 3, 4, 5]) (-1) 1,
    -- 781: tmp157 = einsum(v.aaaa.ovvv, (0, 1, 2, 3), tmp36, (4, 5, 0, 3), (5, 4, 1, 2))
    .set 219 (.ein [(6, [0, 1, 2, 3]), (63, [4, 5, 0, 3])] [5, 4, 1, 2]) 1 1,
    -- 782: tmp133 = einsum(tmp36, (0, 1, 2, 3), tmp0, (0, 4, 2, 5), (1, 4, 3, 5)) * -1
    .set 220 (.ein [(63, [0, 1, 2, 3]), (62, [0, 4, 2, 5])] [1, 4, 3, 5]) (-1) 1,
    -- 783: tmp170 = einsum(tmp0, (0, 1, 2, 3), tmp36, (4, 0, 1, 5), (4, 2, 5, 3))
    .set 221 (.ein [(62, [0, 1, 2, 3]), (63, [4, 0, 1, 5])] [4, 2, 5, 3]) 1 1,
    -- 784: tmp165 = einsum(l2.aaaa, (0, 1, 2, 3), tmp22, (2, 3, 4, 5), (4, 5, 0, 1))
    .set 222 (.ein [(13, [0, 1, 2, 3]), (94, [2, 3, 4, 5])] [4, 5, 0, 1]) 1 1,
    -- 785: del tmp22
    .del 94,
    -- 786: tmp137 = einsum(v.aaaa.ovoo, (0, 1, 2, 3), tmp36, (3, 4, 2, 5), (4, 0, 5, 1)) * -1
    .set 223 (.ein [(22, [0, 1, 2, 3]), (63, [3, 4, 2, 5])] [4, 0, 5, 1]) (-1) 1,
    -- 787: tmp132 = einsum(tmp131, (0, 1, 2, 3), l1.aa, (4, 0), (1, 2, 3, 4))
    .set 224 (.ein [(124, [0, 1, 2, 3]), (12, [4, 0])] [1, 2, 3, 4]) 1 1,
    -- 788: del tmp131
    .del 124,
    -- 789: tmp171 = einsum(v.aaaa.ooov, (0, 1, 2, 3), tmp36, (1, 4, 2, 5), (4, 0, 5, 3)) * -1
    .set 225 (.ein [(21, [0, 1, 2, 3]), (63, [1, 4, 2, 5])] [4, 0, 5, 3]) (-1) 1,
    -- 790: tmp141 = np.copy(f.aa.ov)
    .set 226 (.cp 23) 1 1,
    -- 791: tmp141 += tmp140
    .add 226 (.cp 111) 1 1,
    -- 792: del tmp140
    .del 111,
    -- 793: tmp141 += tmp6
    .add 226 (.cp 48) 1 1,
    -- 794: del tmp6
    .del 48,
    -- 795: tmp156 = einsum(tmp66, (0, 1, 2, 3), v.aaaa.ovov, (3, 4, 2, 5), (0, 1, 5, 4))
    .set 227 (.ein [(95, [0, 1, 2, 3]), (1, [3, 4, 2, 5])] [0, 1, 5, 4]) 1 1,
    -- 796: tmp160 = einsum(tmp152, (0, 1), tmp36, (2, 3, 0, 4), (2, 3, 1, 4))
    .set 228 (.ein [(74, [0, 1]), (63, [2, 3, 0, 4])] [2, 3, 1, 4]) 1 1,
    -- 797: tmp109 = einsum(v.aabb.vvvv, (0, 1, 2, 3), t1.aa, (4, 1), (4, 0, 2, 3))
    .set 229 (.ein [(37, [0, 1, 2, 3]), (5, [4, 1])] [4, 0, 2, 3]) 1 1,
    -- 798: tmp33 = np.copy(tmp30)
    .set 230 (.cp 126) 1 1,
    -- 799: del tmp30
    .del 126,
    -- 800: tmp33 += tmp31
    .add 230 (.cp 125) 1 1,
    -- 801: del tmp31
    .del 125,
    -- 802: tmp33 += tmp32 * 2
    .add 230 (.cp 127) 2 1,
    -- 803: del tmp32
    .del 127,
    -- 804: tmp88 = np.copy(tmp40)
    .set 231 (.cp 58) 1 1,
    -- 805: tmp88 += tmp41 * 2
    .add 231 (.cp 59) 2 1,
    -- 806: del tmp41
    .del 59,
    -- 807: tmp88 += tmp42
    .add 231 (.cp 57) 1 1,
    -- 808: del tmp42
    .del 57,
    -- 809: tmp126 = np.copy(t1.bb) * -1
    .set 232 (.cp 3) (-1) 1,
    -- 810: tmp126 += tmp46 * -1
    .add 232 (.cp 129) (-1) 1,
    -- 811: tmp126 += tmp47 * -2
    .add 232 (.cp 132) (-2) 1,
    -- 812: tmp126 += tmp49
    .add 232 (.cp 131) 1 1,
    -- 813: tmp126 += tmp51 * 2
    .add 232 (.cp 128) 2 1,
    -- 814: tmp126 += tmp56
    .add 232 (.cp 130) 1 1,
    -- 815: tmp108 = einsum(t1.bb, (0, 1), v.bbbb.vvvv, (2, 3, 4, 1), (0, 2, 3, 4))
    .set 233 (.ein [(3, [0, 1]), (34, [2, 3, 4, 1])] [0, 2, 3, 4]) 1 1,
    -- 816: tmp110 = einsum(v.bbbb.ovvv, (0, 1, 2, 3), t1.bb, (4, 1), (4, 0, 2, 3))
    .set 234 (.ein [(4, [0, 1, 2, 3]), (3, [4, 1])] [4, 0, 2, 3]) 1 1,
    -- 817: tmp129 = np.copy(f.bb.vv)
    .set 235 (.cp 26) 1 1,
    -- 818: tmp129 += np.transpose(tmp127, (1, 0))
    .add 235 (.tr 67 [1, 0]) 1 1,
    -- 819: del tmp127
    .del 67,
    -- 820: tmp129 += einsum(tmp128, (0, 1, 2, 3), t1.bb, (0, 1), (3, 2)) * -1
    .add 235 (.ein [(133, [0, 1, 2, 3]), (3, [0, 1])] [3, 2]) (-1) 1,
    -- 821: del tmp128
    .del 133,
    -- 822: tmp115 = np.copy(tmp112)
    .set 236 (.cp 134) 1 1,
    -- 823: tmp115 += tmp113 * 4
    .add 236 (.cp 135) 4 1,
    -- 824: tmp115 += einsum(tmp50, (0, 1, 2, 3), t1.bb, (0, 4), (1, 2, 4, 3)) * 2
    .add 236 (.ein [(66, [0, 1, 2, 3]), (3, [0, 4])] [1, 2, 4, 3]) 2 1,
    -- 825: tmp117 = einsum(t2.abab, (0, 1, 2, 3), l2.abab, (4, 3, 0, 5), (5, 1, 4, 2))
    .set 237 (.ein [(8, [0, 1, 2, 3]), (9, [4, 3, 0, 5])] [5, 1, 4, 2]) 1 1,
    -- 826: tmp117 += einsum(t1.aa, (0, 1), tmp48, (0, 2, 3, 4), (2, 3, 1, 4))
    .add 237 (.ein [(5, [0, 1]), (60, [0, 2, 3, 4])] [2, 3, 1, 4]) 1 1,
    -- 827: tmp111 = np.copy(np.transpose(l2.abab, (2, 3, 0, 1))) * 0.5
    .set 238 (.tr 9 [2, 3, 0, 1]) 1 2,
    -- 828: tmp111 += einsum(l2.abab, (0, 1, 2, 3), t2.aaaa, (4, 2, 5, 0), (4, 3, 5, 1))
    .add 238 (.ein [(9, [0, 1, 2, 3]), (14, [4, 2, 5, 0])] [4, 3, 5, 1]) 1 1,
    -- 829: tmp111 += einsum(tmp38, (0, 1, 2, 3), t1.aa, (0, 4), (1, 2, 4, 3)) * -0.5
    .add 238 (.ein [(84, [0, 1, 2, 3]), (5, [0, 4])] [1, 2, 4, 3]) (-1) 2,
    -- 830: tmp111 += einsum(l2.bbbb, (0, 1, 2, 3), t2.abab, (4, 3, 5, 1), (4, 2, 5, 0))
    .add 238 (.ein [(11, [0, 1, 2, 3]), (8, [4, 3, 5, 1])] [4, 2, 5, 0]) 1 1,
    -- 831: tmp103 = np.copy(np.transpose(v.bbbb.ooov, (0, 2, 1, 3)))
    .set 239 (.tr 18 [0, 2, 1, 3]) 1 1,
    -- 832: tmp103 += einsum(t2.bbbb, (0, 1, 2, 3), v.bbbb.ovvv, (4, 2, 5, 3), (4, 0, 1, 5)) * -1
    .add 239 (.ein [(10, [0, 1, 2, 3]), (4, [4, 2, 5, 3])] [4, 0, 1, 5]) (-1) 1,
    -- 833: tmp103 += einsum(t2.bbbb, (0, 1, 2, 3), tmp98, (4, 1, 5, 3), (5, 0, 4, 2)) * 2
    .add 239 (.ein [(10, [0, 1, 2, 3]), (138, [4, 1, 5, 3])] [5, 0, 4, 2]) 2 1,
    -- 834: del tmp98
    .del 138,
    -- 835: tmp103 += einsum(tmp14, (0, 1, 2, 3), t2.abab, (0, 4, 3, 5), (2, 4, 1, 5))
    .add 239 (.ein [(61, [0, 1, 2, 3]), (8, [0, 4, 3, 5])] [2, 4, 1, 5]) 1 1,
    -- 836: tmp103 += einsum(t2.bbbb, (0, 1, 2, 3), tmp94, (4, 3), (4, 0, 1, 2))
    .add 239 (.ein [(10, [0, 1, 2, 3]), (71, [4, 3])] [4, 0, 1, 2]) 1 1,
    -- 837: tmp103 += einsum(tmp99, (0, 1, 2, 3), t1.bb, (4, 3), (1, 0, 4, 2))
    .add 239 (.ein [(137, [0, 1, 2, 3]), (3, [4, 3])] [1, 0, 4, 2]) 1 1,
    -- 838: del tmp99
    .del 137,
    -- 839: tmp103 += einsum(t1.bb, (0, 1), tmp102, (0, 2, 3, 4), (3, 2, 4, 1)) * -1
    .add 239 (.ein [(3, [0, 1]), (136, [0, 2, 3, 4])] [3, 2, 4, 1]) (-1) 1,
    -- 840: del tmp102
    .del 136,
    -- 841: tmp121 = einsum(t2.bbbb, (0, 1, 2, 3), l1.bb, (3, 4), (4, 0, 1, 2))
    .set 240 (.ein [(10, [0, 1, 2, 3]), (7, [3, 4])] [4, 0, 1, 2]) 1 1,
    -- 842: tmp121 += np.transpose(tmp50, (1, 0, 2, 3))
    .add 240 (.tr 66 [1, 0, 2, 3]) 1 1,
    -- 843: tmp121 += np.transpose(tmp118, (0, 2, 1, 3)) * 0.5
    .add 240 (.tr 140 [0, 2, 1, 3]) 1 2,
    -- 844: tmp121 += np.transpose(tmp119, (0, 2, 1, 3)) * 2
    .add 240 (.tr 139 [0, 2, 1, 3]) 2 1,
    -- 845: tmp121 += einsum(t1.bb, (0, 1), tmp120, (0, 2, 3, 4), (2, 3, 4, 1)) * -1
    .add 240 (.ein [(3, [0, 1]), (103, [0, 2, 3, 4])] [2, 3, 4, 1]) (-1) 1,
    -- 846: tmp28 = np.copy(tmp25)
    .set 241 (.cp 142) 1 1,
    -- 847: del tmp25
    .del 142,
    -- 848: tmp28 += tmp26 * 2
    .add 241 (.cp 143) 2 1,
    -- 849: del tmp26
    .del 143,
    -- 850: tmp28 += tmp27
    .add 241 (.cp 141) 1 1,
    -- 851: del tmp27
    .del 141,
    -- 852: tmp45 = np.copy(np.transpose(l1.aa, (1, 0))) * -1
    .set 242 (.tr 12 [1, 0]) (-1) 1,
    -- 853: tmp45 += t1.aa * -1
    .add 242 (.cp 5) (-1) 1,
    -- 854: tmp45 += tmp34 * -2
    .add 242 (.cp 147) (-2) 1,
    -- 855: tmp45 += tmp35 * -1
    .add 242 (.cp 145) (-1) 1,
    -- 856: tmp45 += tmp37 * 2
    .add 242 (.cp 148) 2 1,
    -- 857: tmp45 += tmp39
    .add 242 (.cp 144) 1 1,
    -- 858: tmp45 += tmp44
    .add 242 (.cp 146) 1 1,
    -- 859: del tmp44
    .del 146,
    -- 860: tmp125 = np.copy(np.transpose(tmp122, (1, 0, 3, 2)))
    .set 243 (.tr 149 [1, 0, 3, 2]) 1 1,
    -- 861: tmp125 += np.transpose(tmp120, (2, 1, 0, 3))
    .add 243 (.tr 103 [2, 1, 0, 3]) 1 1,
    -- 862: del tmp120
    .del 103,
    -- 863: tmp124 = np.copy(tmp70)
    .set 244 (.cp 86) 1 1,
    -- 864: tmp124 += np.transpose(tmp71, (1, 0, 2, 3))
    .add 244 (.tr 87 [1, 0, 2, 3]) 1 1,
    -- 865: tmp114 = np.copy(np.transpose(l2.bbbb, (2, 3, 0, 1)))
    .set 245 (.tr 11 [2, 3, 0, 1]) 1 1,
    -- 866: tmp114 += tmp112 * 0.5
    .add 245 (.cp 134) 1 2,
    -- 867: del tmp112
    .del 134,
    -- 868: tmp114 += tmp113 * 2
    .add 245 (.cp 135) 2 1,
    -- 869: del tmp113
    .del 135,
    -- 870: tmp116 = einsum(l1.bb, (0, 1), t2.abab, (2, 3, 4, 0), (2, 1, 3, 4))
    .set 246 (.ein [(7, [0, 1]), (8, [2, 3, 4, 0])] [2, 1, 3, 4]) 1 1,
    -- 871: tmp116 += tmp48
    .add 246 (.cp 60) 1 1,
    -- 872: tmp116 += einsum(tmp48, (0, 1, 2, 3), t2.aaaa, (4, 0, 5, 3), (4, 1, 2, 5)) * 2
    .add 246 (.ein [(60, [0, 1, 2, 3]), (14, [4, 0, 5, 3])] [4, 1, 2, 5]) 2 1,
    -- 873: tmp116 += einsum(tmp38, (0, 1, 2, 3), t2.abab, (0, 4, 5, 3), (1, 2, 4, 5)) * -1
    .add 246 (.ein [(84, [0, 1, 2, 3]), (8, [0, 4, 5, 3])] [1, 2, 4, 5]) (-1) 1,
    -- 874: tmp116 += einsum(t2.abab, (0, 1, 2, 3), tmp50, (4, 1, 5, 3), (0, 4, 5, 2)) * -2
    .add 246 (.ein [(8, [0, 1, 2, 3]), (66, [4, 1, 5, 3])] [0, 4, 5, 2]) (-2) 1,
    -- 875: tmp116 += einsum(t1.aa, (0, 1), tmp72, (0, 2, 3, 4), (2, 3, 4, 1)) * -1
    .add 246 (.ein [(5, [0, 1]), (150, [0, 2, 3, 4])] [2, 3, 4, 1]) (-1) 1,
    -- 876: tmp107 = np.copy(f.bb.oo) * 0.5
    .set 247 (.cp 33) 1 2,
    -- 877: tmp107 += np.transpose(tmp105, (1, 0)) * 0.5
    .add 247 (.tr 97 [1, 0]) 1 2,
    -- 878: del tmp105
    .del 97,
    -- 879: tmp107 += einsum(t2.abab, (0, 1, 2, 3), v.aabb.ovov, (0, 2, 4, 3), (1, 4)) * 0.5
    .add 247 (.ein [(8, [0, 1, 2, 3]), (2, [0, 2, 4, 3])] [1, 4]) 1 2,
    -- 880: tmp107 += einsum(t2.bbbb, (0, 1, 2, 3), v.bbbb.ovov, (4, 3, 1, 2), (0, 4)) * -1
    .add 247 (.ein [(10, [0, 1, 2, 3]), (0, [4, 3, 1, 2])] [0, 4]) (-1) 1,
    -- 881: tmp107 += einsum(t1.bb, (0, 1), tmp106, (0, 2, 3, 1), (2, 3)) * -0.5
    .add 247 (.ein [(3, [0, 1]), (70, [0, 2, 3, 1])] [2, 3]) (-1) 2,
    -- 882: del tmp106
    .del 70,
    -- 883: tmp107 += einsum(tmp94, (0, 1), t1.bb, (2, 1), (2, 0)) * 0.5
    .add 247 (.ein [(71, [0, 1]), (3, [2, 1])] [2, 0]) 1 2,
    -- 884: tmp123 = np.copy(tmp118)
    .set 248 (.cp 140) 1 1,
    -- 885: del tmp118
    .del 140,
    -- 886: tmp123 += tmp119 * 4
    .add 248 (.cp 139) 4 1,
    -- 887: del tmp119
    .del 139,
    -- 888: tmp123 += einsum(t1.bb, (0, 1), tmp122, (2, 0, 3, 4), (2, 4, 3, 1)) * 2
    .add 248 (.ein [(3, [0, 1]), (149, [2, 0, 3, 4])] [2, 4, 3, 1]) 2 1,
    -- 889: del tmp122
    .del 149,
    -- 890: tmp57 = np.copy(np.transpose(l1.bb, (1, 0))) * -1
    .set 249 (.tr 7 [1, 0]) (-1) 1,
    -- 891: tmp57 += t1.bb * -1
    .add 249 (.cp 3) (-1) 1,
    -- 892: tmp57 += tmp46 * -1
    .add 249 (.cp 129) (-1) 1,
    -- 893: del tmp46
    .del 129,
    -- 894: tmp57 += tmp47 * -2
    .add 249 (.cp 132) (-2) 1,
    -- 895: del tmp47
    .del 132,
    -- 896: tmp57 += tmp49
    .add 249 (.cp 131) 1 1,
    -- 897: del tmp49
    .del 131,
    -- 898: tmp57 += tmp51 * 2
    .add 249 (.cp 128) 2 1,
    -- 899: del tmp51
    .del 128,
    -- 900: tmp57 += tmp56
    .add 249 (.cp 130) 1 1,
    -- 901: del tmp56
    .del 130,
    -- 902: tmp97 = np.copy(np.transpose(v.aabb.ovoo, (0, 2, 3, 1)))
    .set 250 (.tr 15 [0, 2, 3, 1]) 1 1,
    -- 903: tmp97 += tmp2
    .add 250 (.cp 42) 1 1,
    -- 904: tmp97 += einsum(t2.abab, (0, 1, 2, 3), v.aabb.vvov, (4, 2, 5, 3), (0, 1, 5, 4))
    .add 250 (.ein [(8, [0, 1, 2, 3]), (17, [4, 2, 5, 3])] [0, 1, 5, 4]) 1 1,
    -- 905: tmp97 += einsum(tmp90, (0, 1, 2, 3), t2.abab, (4, 2, 5, 3), (4, 1, 0, 5))
    .add 250 (.ein [(154, [0, 1, 2, 3]), (8, [4, 2, 5, 3])] [4, 1, 0, 5]) 1 1,
    -- 906: del tmp90
    .del 154,
    -- 907: tmp97 += einsum(tmp3, (0, 1, 2, 3), t2.aaaa, (4, 0, 5, 3), (4, 2, 1, 5)) * 2
    .add 250 (.ein [(117, [0, 1, 2, 3]), (14, [4, 0, 5, 3])] [4, 2, 1, 5]) 2 1,
    -- 908: tmp97 += einsum(t2.abab, (0, 1, 2, 3), tmp5, (0, 4, 5, 3), (4, 1, 5, 2)) * -1
    .add 250 (.ein [(8, [0, 1, 2, 3]), (152, [0, 4, 5, 3])] [4, 1, 5, 2]) (-1) 1,
    -- 909: tmp97 += einsum(t2.abab, (0, 1, 2, 3), tmp94, (4, 3), (0, 1, 4, 2))
    .add 250 (.ein [(8, [0, 1, 2, 3]), (71, [4, 3])] [0, 1, 4, 2]) 1 1,
    -- 910: tmp97 += einsum(t1.aa, (0, 1), tmp96, (2, 3, 1, 4), (0, 3, 2, 4))
    .add 250 (.ein [(5, [0, 1]), (153, [2, 3, 1, 4])] [0, 3, 2, 4]) 1 1,
    -- 911: del tmp96
    .del 153,
    -- 912: tmp97 += einsum(t1.aa, (0, 1), tmp16, (0, 2, 3, 4), (2, 4, 3, 1)) * -1
    .add 250 (.ein [(5, [0, 1]), (151, [0, 2, 3, 4])] [2, 4, 3, 1]) (-1) 1,
    -- 913: tmp81 = np.copy(tmp74) * 4
    .set 251 (.cp 155) 4 1,
    -- 914: tmp81 += tmp75
    .add 251 (.cp 156) 1 1,
    -- 915: tmp82 = np.copy(tmp70)
    .set 252 (.cp 86) 1 1,
    -- 916: del tmp70
    .del 86,
    -- 917: tmp82 += np.transpose(tmp71, (0, 1, 3, 2))
    .add 252 (.tr 87 [0, 1, 3, 2]) 1 1,
    -- 918: del tmp71
    .del 87,
    -- 919: tmp63 = np.copy(f.aa.oo)
    .set 253 (.cp 36) 1 1,
    -- 920: tmp63 += np.transpose(tmp59, (1, 0))
    .add 253 (.tr 116 [1, 0]) 1 1,
    -- 921: del tmp59
    .del 116,
    -- 922: tmp63 += einsum(v.aaaa.ovov, (0, 1, 2, 3), t2.aaaa, (4, 2, 3, 1), (4, 0)) * -2
    .add 253 (.ein [(1, [0, 1, 2, 3]), (14, [4, 2, 3, 1])] [4, 0]) (-2) 1,
    -- 923: tmp63 += einsum(t2.abab, (0, 1, 2, 3), v.aabb.ovov, (4, 2, 1, 3), (0, 4))
    .add 253 (.ein [(8, [0, 1, 2, 3]), (2, [4, 2, 1, 3])] [0, 4]) 1 1,
    -- 924: tmp63 += np.transpose(tmp61, (1, 0)) * -1
    .add 253 (.tr 122 [1, 0]) (-1) 1,
    -- 925: del tmp61
    .del 122,
    -- 926: tmp63 += tmp62
    .add 253 (.cp 121) 1 1,
    -- 927: del tmp62
    .del 121,
    -- 928: tmp80 = einsum(t1.aa, (0, 1), tmp36, (0, 2, 3, 4), (2, 3, 4, 1)) * -1
    .set 254 (.ein [(5, [0, 1]), (63, [0, 2, 3, 4])] [2, 3, 4, 1]) (-1) 1,
    -- 929: tmp73 = einsum(t2.abab, (0, 1, 2, 3), l1.aa, (2, 4), (4, 0, 1, 3))
    .set 255 (.ein [(8, [0, 1, 2, 3]), (12, [2, 4])] [4, 0, 1, 3]) 1 1,
    -- 930: tmp73 += tmp38
    .add 255 (.cp 84) 1 1,
    -- 931: tmp73 += einsum(t2.abab, (0, 1, 2, 3), tmp36, (4, 0, 5, 2), (4, 5, 1, 3)) * -2
    .add 255 (.ein [(8, [0, 1, 2, 3]), (63, [4, 0, 5, 2])] [4, 5, 1, 3]) (-2) 1,
    -- 932: tmp73 += einsum(t2.bbbb, (0, 1, 2, 3), tmp38, (4, 5, 1, 3), (4, 5, 0, 2)) * 2
    .add 255 (.ein [(10, [0, 1, 2, 3]), (84, [4, 5, 1, 3])] [4, 5, 0, 2]) 2 1,
    -- 933: tmp73 += einsum(tmp48, (0, 1, 2, 3), t2.abab, (4, 1, 3, 5), (0, 4, 2, 5)) * -1
    .add 255 (.ein [(60, [0, 1, 2, 3]), (8, [4, 1, 3, 5])] [0, 4, 2, 5]) (-1) 1,
    -- 934: tmp73 += einsum(tmp72, (0, 1, 2, 3), t1.bb, (2, 4), (0, 1, 3, 4)) * -1
    .add 255 (.ein [(150, [0, 1, 2, 3]), (3, [2, 4])] [0, 1, 3, 4]) (-1) 1,
    -- 935: del tmp72
    .del 150,
    -- 936: tmp17 = np.copy(v.aabb.ooov)
    .set 256 (.cp 24) 1 1,
    -- 937: tmp17 += einsum(v.aabb.oovv, (0, 1, 2, 3), t1.bb, (4, 3), (0, 1, 4, 2))
    .add 256 (.ein [(35, [0, 1, 2, 3]), (3, [4, 3])] [0, 1, 4, 2]) 1 1,
    -- 938: tmp17 += einsum(t2.abab, (0, 1, 2, 3), v.aabb.ovvv, (4, 2, 5, 3), (0, 4, 1, 5))
    .add 256 (.ein [(8, [0, 1, 2, 3]), (16, [4, 2, 5, 3])] [0, 4, 1, 5]) 1 1,
    -- 939: tmp17 += einsum(t2.abab, (0, 1, 2, 3), tmp1, (4, 5, 0, 2), (5, 4, 1, 3))
    .add 256 (.ein [(8, [0, 1, 2, 3]), (158, [4, 5, 0, 2])] [5, 4, 1, 3]) 1 1,
    -- 940: del tmp1
    .del 158,
    -- 941: tmp17 += einsum(tmp3, (0, 1, 2, 3), t2.abab, (4, 1, 3, 5), (4, 0, 2, 5)) * -1
    .add 256 (.ein [(117, [0, 1, 2, 3]), (8, [4, 1, 3, 5])] [4, 0, 2, 5]) (-1) 1,
    -- 942: del tmp3
    .del 117,
    -- 943: tmp17 += einsum(tmp5, (0, 1, 2, 3), t2.bbbb, (4, 2, 5, 3), (1, 0, 4, 5)) * 2
    .add 256 (.ein [(152, [0, 1, 2, 3]), (10, [4, 2, 5, 3])] [1, 0, 4, 5]) 2 1,
    -- 944: del tmp5
    .del 152,
    -- 945: tmp17 += einsum(t2.abab, (0, 1, 2, 3), tmp9, (4, 2), (0, 4, 1, 3))
    .add 256 (.ein [(8, [0, 1, 2, 3]), (79, [4, 2])] [0, 4, 1, 3]) 1 1,
    -- 946: tmp17 += einsum(t1.aa, (0, 1), tmp11, (2, 3, 1, 4), (0, 2, 3, 4))
    .add 256 (.ein [(5, [0, 1]), (157, [2, 3, 1, 4])] [0, 2, 3, 4]) 1 1,
    -- 947: tmp17 += einsum(tmp16, (0, 1, 2, 3), t1.bb, (2, 4), (1, 0, 3, 4)) * -1
    .add 256 (.ein [(151, [0, 1, 2, 3]), (3, [2, 4])] [1, 0, 3, 4]) (-1) 1,
    -- 948: del tmp16
    .del 151,
    -- 949: tmp24 = np.copy(np.transpose(v.aaaa.ooov, (0, 2, 1, 3)))
    .set 257 (.tr 21 [0, 2, 1, 3]) 1 1,
    -- 950: tmp24 += einsum(v.aaaa.ovvv, (0, 1, 2, 3), t2.aaaa, (4, 5, 1, 3), (0, 4, 5, 2)) * -1
    .add 257 (.ein [(6, [0, 1, 2, 3]), (14, [4, 5, 1, 3])] [0, 4, 5, 2]) (-1) 1,
    -- 951: tmp24 += einsum(tmp18, (0, 1, 2, 3), t2.aaaa, (4, 1, 5, 3), (2, 4, 0, 5)) * 2
    .add 257 (.ein [(160, [0, 1, 2, 3]), (14, [4, 1, 5, 3])] [2, 4, 0, 5]) 2 1,
    -- 952: del tmp18
    .del 160,
    -- 953: tmp24 += einsum(t2.abab, (0, 1, 2, 3), tmp19, (4, 5, 1, 3), (5, 0, 4, 2))
    .add 257 (.ein [(8, [0, 1, 2, 3]), (162, [4, 5, 1, 3])] [5, 0, 4, 2]) 1 1,
    -- 954: del tmp19
    .del 162,
    -- 955: tmp24 += einsum(tmp9, (0, 1), t2.aaaa, (2, 3, 4, 1), (0, 2, 3, 4))
    .add 257 (.ein [(79, [0, 1]), (14, [2, 3, 4, 1])] [0, 2, 3, 4]) 1 1,
    -- 956: tmp24 += einsum(t1.aa, (0, 1), tmp20, (2, 3, 4, 1), (3, 2, 0, 4))
    .add 257 (.ein [(5, [0, 1]), (161, [2, 3, 4, 1])] [3, 2, 0, 4]) 1 1,
    -- 957: del tmp20
    .del 161,
    -- 958: tmp24 += einsum(tmp23, (0, 1, 2, 3), t1.aa, (0, 4), (2, 1, 3, 4)) * -1
    .add 257 (.ein [(159, [0, 1, 2, 3]), (5, [0, 4])] [2, 1, 3, 4]) (-1) 1,
    -- 959: del tmp23
    .del 159,
    -- 960: tmp64 = einsum(v.aabb.vvvv, (0, 1, 2, 3), t1.bb, (4, 3), (4, 0, 1, 2))
    .set 258 (.ein [(37, [0, 1, 2, 3]), (3, [4, 3])] [4, 0, 1, 2]) 1 1,
    -- 961: tmp58 = np.copy(tmp52) * 0.5
    .set 259 (.cp 53) 1 2,
    -- 962: tmp58 += tmp53 * 0.5
    .add 259 (.cp 54) 1 2,
    -- 963: del tmp53
    .del 54,
    -- 964: tmp58 += tmp54
    .add 259 (.cp 55) 1 1,
    -- 965: del tmp54
    .del 55,
    -- 966: tmp78 = einsum(t2.abab, (0, 1, 2, 3), l2.abab, (2, 4, 5, 1), (5, 0, 4, 3))
    .set 260 (.ein [(8, [0, 1, 2, 3]), (9, [2, 4, 5, 1])] [5, 0, 4, 3]) 1 1,
    -- 967: tmp78 += einsum(tmp38, (0, 1, 2, 3), t1.bb, (2, 4), (0, 1, 4, 3))
    .add 260 (.ein [(84, [0, 1, 2, 3]), (3, [2, 4])] [0, 1, 4, 3]) 1 1,
    -- 968: tmp69 = einsum(t2.aaaa, (0, 1, 2, 3), l2.aaaa, (4, 3, 5, 1), (5, 0, 4, 2)) * 4
    .set 261 (.ein [(14, [0, 1, 2, 3]), (13, [4, 3, 5, 1])] [5, 0, 4, 2]) 4 1,
    -- 969: tmp69 += einsum(l2.abab, (0, 1, 2, 3), t2.abab, (4, 3, 5, 1), (2, 4, 0, 5))
    .add 261 (.ein [(9, [0, 1, 2, 3]), (8, [4, 3, 5, 1])] [2, 4, 0, 5]) 1 1,
    -- 970: tmp83 = np.copy(t1.aa) * -0.5
    .set 262 (.cp 5) (-1) 2,
    -- 971: tmp83 += tmp34 * -1
    .add 262 (.cp 147) (-1) 1,
    -- 972: del tmp34
    .del 147,
    -- 973: tmp83 += tmp35 * -0.5
    .add 262 (.cp 145) (-1) 2,
    -- 974: del tmp35
    .del 145,
    -- 975: tmp83 += tmp37
    .add 262 (.cp 148) 1 1,
    -- 976: del tmp37
    .del 148,
    -- 977: tmp83 += tmp39 * 0.5
    .add 262 (.cp 144) 1 2,
    -- 978: del tmp39
    .del 144,
    -- 979: tmp83 += einsum(tmp43, (0, 1), t1.aa, (0, 2), (1, 2))
    .add 262 (.ein [(85, [0, 1]), (5, [0, 2])] [1, 2]) 1 1,
    -- 980: tmp79 = np.copy(v.aaaa.ovvv)
    .set 263 (.cp 6) 1 1,
    -- 981: tmp79 += einsum(v.aaaa.vvvv, (0, 1, 2, 3), t1.aa, (4, 3), (4, 0, 2, 1)) * -1
    .add 263 (.ein [(38, [0, 1, 2, 3]), (5, [4, 3])] [4, 0, 2, 1]) (-1) 1,
    -- 982: tmp77 = einsum(l1.aa, (0, 1), t2.aaaa, (2, 3, 4, 0), (1, 2, 3, 4))
    .set 264 (.ein [(12, [0, 1]), (14, [2, 3, 4, 0])] [1, 2, 3, 4]) 1 1,
    -- 983: tmp77 += np.transpose(tmp36, (1, 0, 2, 3))
    .add 264 (.tr 63 [1, 0, 2, 3]) 1 1,
    -- 984: tmp77 += np.transpose(tmp74, (0, 2, 1, 3)) * 2
    .add 264 (.tr 155 [0, 2, 1, 3]) 2 1,
    -- 985: del tmp74
    .del 155,
    -- 986: tmp77 += np.transpose(tmp75, (0, 2, 1, 3)) * 0.5
    .add 264 (.tr 156 [0, 2, 1, 3]) 1 2,
    -- 987: del tmp75
    .del 156,
    -- 988: tmp77 += einsum(tmp76, (0, 1, 2, 3), t1.aa, (0, 4), (1, 3, 2, 4))
    .add 264 (.ein [(163, [0, 1, 2, 3]), (5, [0, 4])] [1, 3, 2, 4]) 1 1,
    -- 989: del tmp76
    .del 163,
    -- 990: tmp67 = np.copy(np.transpose(l2.abab, (2, 3, 0, 1))) * 0.5
    .set 265 (.tr 9 [2, 3, 0, 1]) 1 2,
    -- 991: tmp67 += einsum(l2.aaaa, (0, 1, 2, 3), t2.abab, (3, 4, 1, 5), (2, 4, 0, 5))
    .add 265 (.ein [(13, [0, 1, 2, 3]), (8, [3, 4, 1, 5])] [2, 4, 0, 5]) 1 1,
    -- 992: tmp67 += einsum(t2.bbbb, (0, 1, 2, 3), l2.abab, (4, 3, 5, 1), (5, 0, 4, 2))
    .add 265 (.ein [(10, [0, 1, 2, 3]), (9, [4, 3, 5, 1])] [5, 0, 4, 2]) 1 1,
    -- 993: tmp67 += einsum(tmp48, (0, 1, 2, 3), t1.bb, (1, 4), (0, 2, 3, 4)) * -0.5
    .add 265 (.ein [(60, [0, 1, 2, 3]), (3, [1, 4])] [0, 2, 3, 4]) (-1) 2,
    -- 994: l2new.bbbb = np.copy(np.transpose(v.bbbb.ovov, (1, 3, 0, 2)))
    .set 266 (.tr 0 [1, 3, 0, 2]) 1 1,
    -- 995: l2new.bbbb += einsum(tmp193, (0, 1, 2, 3), l1.bb, (4, 0), (3, 4, 2, 1)) * -1
    .add 266 (.ein [(188, [0, 1, 2, 3]), (7, [4, 0])] [3, 4, 2, 1]) (-1) 1,
    -- 996: del tmp193
    .del 188,
    -- 997: l2new.bbbb += np.transpose(v.bbbb.ovov, (3, 1, 0, 2)) * -1
    .add 266 (.tr 0 [3, 1, 0, 2]) (-1) 1,
    -- 998: l2new.bbbb += np.transpose(tmp195, (3, 2, 0, 1))
    .add 266 (.tr 186 [3, 2, 0, 1]) 1 1,
    -- 999: l2new.bbbb += np.transpose(tmp196, (3, 2, 0, 1)) * 2
    .add 266 (.tr 189 [3, 2, 0, 1]) 2 1,
    -- 1000: l2new.bbbb += np.transpose(tmp197, (2, 3, 0, 1)) * -1
    .add 266 (.tr 182 [2, 3, 0, 1]) (-1) 1,
    -- 1001: l2new.bbbb += np.transpose(tmp198, (3, 2, 0, 1))
    .add 266 (.tr 165 [3, 2, 0, 1]) 1 1,
    -- 1002: l2new.bbbb += np.transpose(tmp199, (3, 2, 0, 1)) * 2
    .add 266 (.tr 175 [3, 2, 0, 1]) 2 1,
    -- 1003: l2new.bbbb += np.transpose(tmp200, (3, 2, 0, 1))
    .add 266 (.tr 190 [3, 2, 0, 1]) 1 1,
    -- 1004: l2new.bbbb += einsum(tmp201, (0, 1, 2, 3), l2.bbbb, (4, 3, 5, 0), (2, 4, 5, 1)) * -2
    .add 266 (.ein [(172, [0, 1, 2, 3]), (11, [4, 3, 5, 0])] [2, 4, 5, 1]) (-2) 1,
    -- 1005: del tmp201
    .del 172,
    -- 1006: l2new.bbbb += einsum(l2.abab, (0, 1, 2, 3), tmp202, (2, 4, 0, 5), (5, 1, 3, 4)) * -1
    .add 266 (.ein [(9, [0, 1, 2, 3]), (179, [2, 4, 0, 5])] [5, 1, 3, 4]) (-1) 1,
    -- 1007: del tmp202
    .del 179,
    -- 1008: l2new.bbbb += einsum(l2.bbbb, (0, 1, 2, 3), tmp182, (3, 4), (0, 1, 2, 4)) * -2
    .add 266 (.ein [(11, [0, 1, 2, 3]), (187, [3, 4])] [0, 1, 2, 4]) (-2) 1,
    -- 1009: l2new.bbbb += einsum(l1.bb, (0, 1), tmp203, (2, 3), (3, 0, 1, 2)) * -1
    .add 266 (.ein [(7, [0, 1]), (177, [2, 3])] [3, 0, 1, 2]) (-1) 1,
    -- 1010: del tmp203
    .del 177,
    -- 1011: l2new.bbbb += np.transpose(tmp196, (3, 2, 1, 0)) * -2
    .add 266 (.tr 189 [3, 2, 1, 0]) (-2) 1,
    -- 1012: l2new.bbbb += np.transpose(tmp197, (2, 3, 1, 0))
    .add 266 (.tr 182 [2, 3, 1, 0]) 1 1,
    -- 1013: l2new.bbbb += np.transpose(tmp198, (3, 2, 1, 0)) * -1
    .add 266 (.tr 165 [3, 2, 1, 0]) (-1) 1,
    -- 1014: l2new.bbbb += np.transpose(tmp199, (3, 2, 1, 0)) * -2
    .add 266 (.tr 175 [3, 2, 1, 0]) (-2) 1,
    -- 1015: l2new.bbbb += np.transpose(tmp200, (3, 2, 1, 0)) * -1
    .add 266 (.tr 190 [3, 2, 1, 0]) (-1) 1,
    -- 1016: l2new.bbbb += np.transpose(tmp207, (2, 3, 0, 1)) * 2
    .add 266 (.tr 170 [2, 3, 0, 1]) 2 1,
    -- 1017: l2new.bbbb += np.transpose(tmp208, (2, 3, 0, 1))
    .add 266 (.tr 178 [2, 3, 0, 1]) 1 1,
    -- 1018: l2new.bbbb += einsum(l2.bbbb, (0, 1, 2, 3), tmp210, (3, 4), (0, 1, 4, 2)) * 2
    .add 266 (.ein [(11, [0, 1, 2, 3]), (167, [3, 4])] [0, 1, 4, 2]) 2 1,
    -- 1019: del tmp210
    .del 167,
    -- 1020: l2new.bbbb += einsum(l1.bb, (0, 1), tmp178, (2, 3), (3, 0, 2, 1))
    .add 266 (.ein [(7, [0, 1]), (185, [2, 3])] [3, 0, 2, 1]) 1 1,
    -- 1021: l2new.bbbb += np.transpose(tmp196, (2, 3, 0, 1)) * -2
    .add 266 (.tr 189 [2, 3, 0, 1]) (-2) 1,
    -- 1022: l2new.bbbb += np.transpose(tmp197, (3, 2, 0, 1))
    .add 266 (.tr 182 [3, 2, 0, 1]) 1 1,
    -- 1023: l2new.bbbb += np.transpose(tmp198, (2, 3, 0, 1)) * -1
    .add 266 (.tr 165 [2, 3, 0, 1]) (-1) 1,
    -- 1024: l2new.bbbb += np.transpose(tmp199, (2, 3, 0, 1)) * -2
    .add 266 (.tr 175 [2, 3, 0, 1]) (-2) 1,
    -- 1025: l2new.bbbb += np.transpose(tmp200, (2, 3, 0, 1)) * -1
    .add 266 (.tr 190 [2, 3, 0, 1]) (-1) 1,
    -- 1026: l2new.bbbb += np.transpose(tmp207, (3, 2, 1, 0)) * 2
    .add 266 (.tr 170 [3, 2, 1, 0]) 2 1,
    -- 1027: l2new.bbbb += np.transpose(tmp208, (3, 2, 1, 0))
    .add 266 (.tr 178 [3, 2, 1, 0]) 1 1,
    -- 1028: l2new.bbbb += einsum(tmp178, (0, 1), l1.bb, (2, 3), (2, 1, 3, 0))
    .add 266 (.ein [(185, [0, 1]), (7, [2, 3])] [2, 1, 3, 0]) 1 1,
    -- 1029: l2new.bbbb += np.transpose(tmp196, (2, 3, 1, 0)) * 2
    .add 266 (.tr 189 [2, 3, 1, 0]) 2 1,
    -- 1030: del tmp196
    .del 189,
    -- 1031: l2new.bbbb += np.transpose(tmp197, (3, 2, 1, 0)) * -1
    .add 266 (.tr 182 [3, 2, 1, 0]) (-1) 1,
    -- 1032: del tmp197
    .del 182,
    -- 1033: l2new.bbbb += np.transpose(tmp198, (2, 3, 1, 0))
    .add 266 (.tr 165 [2, 3, 1, 0]) 1 1,
    -- 1034: del tmp198
    .del 165,
    -- 1035: l2new.bbbb += np.transpose(tmp199, (2, 3, 1, 0)) * 2
    .add 266 (.tr 175 [2, 3, 1, 0]) 2 1,
    -- 1036: del tmp199
    .del 175,
    -- 1037: l2new.bbbb += np.transpose(tmp200, (2, 3, 1, 0))
    .add 266 (.tr 190 [2, 3, 1, 0]) 1 1,
    -- 1038: del tmp200
    .del 190,
    -- 1039: l2new.bbbb += np.transpose(tmp207, (3, 2, 0, 1)) * -2
    .add 266 (.tr 170 [3, 2, 0, 1]) (-2) 1,
    -- 1040: del tmp207
    .del 170,
    -- 1041: l2new.bbbb += np.transpose(tmp208, (3, 2, 0, 1)) * -1
    .add 266 (.tr 178 [3, 2, 0, 1]) (-1) 1,
    -- 1042: del tmp208
    .del 178,
    -- 1043: l2new.bbbb += einsum(l1.bb, (0, 1), tmp178, (2, 3), (0, 3, 2, 1)) * -1
    .add 266 (.ein [(7, [0, 1]), (185, [2, 3])] [0, 3, 2, 1]) (-1) 1,
    -- 1044: l2new.bbbb += np.transpose(tmp211, (3, 2, 1, 0)) * 2
    .add 266 (.tr 174 [3, 2, 1, 0]) 2 1,
    -- 1045: del tmp211
    .del 174,
    -- 1046: l2new.bbbb += np.transpose(tmp212, (3, 2, 1, 0)) * 2
    .add 266 (.tr 171 [3, 2, 1, 0]) 2 1,
    -- 1047: del tmp212
    .del 171,
    -- 1048: l2new.bbbb += np.transpose(tmp213, (2, 3, 1, 0)) * 2
    .add 266 (.tr 168 [2, 3, 1, 0]) 2 1,
    -- 1049: l2new.bbbb += einsum(l2.bbbb, (0, 1, 2, 3), tmp215, (4, 1), (4, 0, 2, 3)) * -1
    .add 266 (.ein [(11, [0, 1, 2, 3]), (169, [4, 1])] [4, 0, 2, 3]) (-1) 1,
    -- 1050: del tmp215
    .del 169,
    -- 1051: l2new.bbbb += np.transpose(tmp216, (2, 3, 1, 0)) * -2
    .add 266 (.tr 183 [2, 3, 1, 0]) (-2) 1,
    -- 1052: l2new.bbbb += np.transpose(tmp220, (2, 3, 1, 0)) * -1
    .add 266 (.tr 176 [2, 3, 1, 0]) (-1) 1,
    -- 1053: l2new.bbbb += np.transpose(tmp213, (3, 2, 1, 0)) * -2
    .add 266 (.tr 168 [3, 2, 1, 0]) (-2) 1,
    -- 1054: del tmp213
    .del 168,
    -- 1055: l2new.bbbb += np.transpose(tmp220, (3, 2, 1, 0)) * 2
    .add 266 (.tr 176 [3, 2, 1, 0]) 2 1,
    -- 1056: del tmp220
    .del 176,
    -- 1057: l2new.bbbb += np.transpose(tmp216, (3, 2, 1, 0)) * 2
    .add 266 (.tr 183 [3, 2, 1, 0]) 2 1,
    -- 1058: del tmp216
    .del 183,
    -- 1059: l2new.bbbb += np.transpose(tmp221, (2, 3, 0, 1)) * -2
    .add 266 (.tr 181 [2, 3, 0, 1]) (-2) 1,
    -- 1060: l2new.bbbb += np.transpose(tmp221, (2, 3, 1, 0)) * 2
    .add 266 (.tr 181 [2, 3, 1, 0]) 2 1,
    -- 1061: del tmp221
    .del 181,
    -- 1062: l2new.bbbb += einsum(l2.bbbb, (0, 1, 2, 3), tmp222, (2, 4, 3, 5), (0, 1, 4, 5)) * 2
    .add 266 (.ein [(11, [0, 1, 2, 3]), (164, [2, 4, 3, 5])] [0, 1, 4, 5]) 2 1,
    -- 1063: del tmp222
    .del 164,
    -- 1064: l2new.bbbb += einsum(l1.bb, (0, 1), tmp223, (1, 2, 3, 4), (4, 0, 2, 3))
    .add 266 (.ein [(7, [0, 1]), (180, [1, 2, 3, 4])] [4, 0, 2, 3]) 1 1,
    -- 1065: del tmp223
    .del 180,
    -- 1066: l2new.bbbb += np.transpose(tmp195, (3, 2, 1, 0)) * -1
    .add 266 (.tr 186 [3, 2, 1, 0]) (-1) 1,
    -- 1067: del tmp195
    .del 186,
    -- 1068: l2new.bbbb += np.transpose(tmp224, (3, 2, 0, 1)) * -2
    .add 266 (.tr 173 [3, 2, 0, 1]) (-2) 1,
    -- 1069: l2new.bbbb += np.transpose(tmp225, (3, 2, 0, 1)) * -2
    .add 266 (.tr 166 [3, 2, 0, 1]) (-2) 1,
    -- 1070: l2new.bbbb += einsum(tmp192, (0, 1), l1.bb, (2, 3), (1, 2, 3, 0))
    .add 266 (.ein [(191, [0, 1]), (7, [2, 3])] [1, 2, 3, 0]) 1 1,
    -- 1071: l2new.bbbb += np.transpose(tmp226, (3, 2, 0, 1)) * -1
    .add 266 (.tr 184 [3, 2, 0, 1]) (-1) 1,
    -- 1072: l2new.bbbb += np.transpose(tmp224, (2, 3, 0, 1)) * 2
    .add 266 (.tr 173 [2, 3, 0, 1]) 2 1,
    -- 1073: l2new.bbbb += np.transpose(tmp225, (2, 3, 0, 1)) * 2
    .add 266 (.tr 166 [2, 3, 0, 1]) 2 1,
    -- 1074: l2new.bbbb += np.transpose(tmp226, (2, 3, 0, 1))
    .add 266 (.tr 184 [2, 3, 0, 1]) 1 1,
    -- 1075: l2new.bbbb += einsum(tmp192, (0, 1), l1.bb, (2, 3), (2, 1, 3, 0)) * -1
    .add 266 (.ein [(191, [0, 1]), (7, [2, 3])] [2, 1, 3, 0]) (-1) 1,
    -- 1076: l2new.bbbb += np.transpose(tmp224, (3, 2, 1, 0)) * 2
    .add 266 (.tr 173 [3, 2, 1, 0]) 2 1,
    -- 1077: l2new.bbbb += np.transpose(tmp225, (3, 2, 1, 0)) * 2
    .add 266 (.tr 166 [3, 2, 1, 0]) 2 1,
    -- 1078: l2new.bbbb += np.transpose(tmp226, (3, 2, 1, 0))
    .add 266 (.tr 184 [3, 2, 1, 0]) 1 1,
    -- 1079: l2new.bbbb += einsum(l1.bb, (0, 1), tmp192, (2, 3), (3, 0, 2, 1)) * -1
    .add 266 (.ein [(7, [0, 1]), (191, [2, 3])] [3, 0, 2, 1]) (-1) 1,
    -- 1080: l2new.bbbb += np.transpose(tmp224, (2, 3, 1, 0)) * -2
    .add 266 (.tr 173 [2, 3, 1, 0]) (-2) 1,
    -- 1081: del tmp224
    .del 173,
    -- 1082: l2new.bbbb += np.transpose(tmp225, (2, 3, 1, 0)) * -2
    .add 266 (.tr 166 [2, 3, 1, 0]) (-2) 1,
    -- 1083: del tmp225
    .del 166,
    -- 1084: l2new.bbbb += einsum(l1.bb, (0, 1), tmp192, (2, 3), (0, 3, 2, 1))
    .add 266 (.ein [(7, [0, 1]), (191, [2, 3])] [0, 3, 2, 1]) 1 1,
    -- 1085: l2new.bbbb += np.transpose(tmp226, (2, 3, 1, 0)) * -1
    .add 266 (.tr 184 [2, 3, 1, 0]) (-1) 1,
    -- 1086: del tmp226
    .del 184,
    -- 1087: l2new.abab = np.copy(np.transpose(v.aabb.ovov, (1, 3, 0, 2)))
    .set 267 (.tr 2 [1, 3, 0, 2]) 1 1,
    -- 1088: l2new.abab += einsum(l1.bb, (0, 1), tmp14, (2, 1, 3, 4), (4, 0, 2, 3)) * -1
    .add 267 (.ein [(7, [0, 1]), (61, [2, 1, 3, 4])] [4, 0, 2, 3]) (-1) 1,
    -- 1089: l2new.abab += einsum(tmp2, (0, 1, 2, 3), tmp50, (4, 1, 2, 5), (3, 5, 0, 4)) * -2
    .add 267 (.ein [(42, [0, 1, 2, 3]), (66, [4, 1, 2, 5])] [3, 5, 0, 4]) (-2) 1,
    -- 1090: del tmp2
    .del 42,
    -- 1091: l2new.abab += einsum(tmp0, (0, 1, 2, 3), tmp38, (0, 2, 4, 5), (3, 5, 1, 4)) * -1
    .add 267 (.ein [(62, [0, 1, 2, 3]), (84, [0, 2, 4, 5])] [3, 5, 1, 4]) (-1) 1,
    -- 1092: l2new.abab += einsum(tmp50, (0, 1, 2, 3), v.aabb.ovoo, (4, 5, 2, 1), (5, 3, 4, 0)) * -2
    .add 267 (.ein [(66, [0, 1, 2, 3]), (15, [4, 5, 2, 1])] [5, 3, 4, 0]) (-2) 1,
    -- 1093: l2new.abab += einsum(v.aaaa.ovoo, (0, 1, 2, 3), tmp38, (3, 2, 4, 5), (1, 5, 0, 4)) * -1
    .add 267 (.ein [(22, [0, 1, 2, 3]), (84, [3, 2, 4, 5])] [1, 5, 0, 4]) (-1) 1,
    -- 1094: l2new.abab += einsum(v.aabb.ovvv, (0, 1, 2, 3), l1.bb, (3, 4), (1, 2, 0, 4))
    .add 267 (.ein [(16, [0, 1, 2, 3]), (7, [3, 4])] [1, 2, 0, 4]) 1 1,
    -- 1095: l2new.abab += einsum(l2.abab, (0, 1, 2, 3), tmp172, (2, 4, 0, 5), (5, 1, 4, 3))
    .add 267 (.ein [(9, [0, 1, 2, 3]), (193, [2, 4, 0, 5])] [5, 1, 4, 3]) 1 1,
    -- 1096: del tmp172
    .del 193,
    -- 1097: l2new.abab += einsum(l2.bbbb, (0, 1, 2, 3), tmp146, (4, 3, 5, 1), (5, 0, 4, 2)) * 2
    .add 267 (.ein [(11, [0, 1, 2, 3]), (120, [4, 3, 5, 1])] [5, 0, 4, 2]) 2 1,
    -- 1098: del tmp146
    .del 120,
    -- 1099: l2new.abab += einsum(tmp154, (0, 1), l2.abab, (2, 3, 0, 4), (2, 3, 1, 4)) * -1
    .add 267 (.ein [(201, [0, 1]), (9, [2, 3, 0, 4])] [2, 3, 1, 4]) (-1) 1,
    -- 1100: l2new.abab += einsum(l1.bb, (0, 1), tmp155, (2, 3), (3, 0, 2, 1))
    .add 267 (.ein [(7, [0, 1]), (195, [2, 3])] [3, 0, 2, 1]) 1 1,
    -- 1101: l2new.abab += einsum(l1.aa, (0, 1), v.aabb.vvov, (2, 0, 3, 4), (2, 4, 1, 3))
    .add 267 (.ein [(12, [0, 1]), (17, [2, 0, 3, 4])] [2, 4, 1, 3]) 1 1,
    -- 1102: l2new.abab += einsum(tmp89, (0, 1, 2, 3), tmp48, (4, 0, 2, 5), (5, 3, 4, 1)) * -1
    .add 267 (.ein [(56, [0, 1, 2, 3]), (60, [4, 0, 2, 5])] [5, 3, 4, 1]) (-1) 1,
    -- 1103: l2new.abab += einsum(tmp4, (0, 1, 2, 3), tmp36, (4, 0, 1, 5), (5, 3, 4, 2)) * -2
    .add 267 (.ein [(91, [0, 1, 2, 3]), (63, [4, 0, 1, 5])] [5, 3, 4, 2]) (-2) 1,
    -- 1104: del tmp4
    .del 91,
    -- 1105: l2new.abab += einsum(v.bbbb.ovoo, (0, 1, 2, 3), tmp48, (4, 3, 2, 5), (5, 1, 4, 0)) * -1
    .add 267 (.ein [(19, [0, 1, 2, 3]), (60, [4, 3, 2, 5])] [5, 1, 4, 0]) (-1) 1,
    -- 1106: l2new.abab += einsum(tmp36, (0, 1, 2, 3), v.aabb.ooov, (2, 1, 4, 5), (3, 5, 0, 4)) * -2
    .add 267 (.ein [(63, [0, 1, 2, 3]), (24, [2, 1, 4, 5])] [3, 5, 0, 4]) (-2) 1,
    -- 1107: l2new.abab += einsum(tmp174, (0, 1, 2, 3), l2.abab, (4, 2, 5, 0), (4, 3, 5, 1))
    .add 267 (.ein [(199, [0, 1, 2, 3]), (9, [4, 2, 5, 0])] [4, 3, 5, 1]) 1 1,
    -- 1108: del tmp174
    .del 199,
    -- 1109: l2new.abab += einsum(tmp176, (0, 1, 2, 3), l2.aaaa, (4, 2, 5, 0), (4, 3, 5, 1)) * 2
    .add 267 (.ein [(106, [0, 1, 2, 3]), (13, [4, 2, 5, 0])] [4, 3, 5, 1]) 2 1,
    -- 1110: del tmp176
    .del 106,
    -- 1111: l2new.abab += einsum(l1.aa, (0, 1), tmp178, (2, 3), (0, 3, 1, 2))
    .add 267 (.ein [(12, [0, 1]), (185, [2, 3])] [0, 3, 1, 2]) 1 1,
    -- 1112: del tmp178
    .del 185,
    -- 1113: l2new.abab += einsum(l2.abab, (0, 1, 2, 3), tmp179, (3, 4, 0, 5), (5, 1, 2, 4)) * -1
    .add 267 (.ein [(9, [0, 1, 2, 3]), (194, [3, 4, 0, 5])] [5, 1, 2, 4]) (-1) 1,
    -- 1114: del tmp179
    .del 194,
    -- 1115: l2new.abab += einsum(l2.abab, (0, 1, 2, 3), tmp182, (3, 4), (0, 1, 2, 4)) * -1
    .add 267 (.ein [(9, [0, 1, 2, 3]), (187, [3, 4])] [0, 1, 2, 4]) (-1) 1,
    -- 1116: del tmp182
    .del 187,
    -- 1117: l2new.abab += einsum(tmp38, (0, 1, 2, 3), v.aabb.ovvv, (1, 4, 5, 3), (4, 5, 0, 2)) * -1
    .add 267 (.ein [(84, [0, 1, 2, 3]), (16, [1, 4, 5, 3])] [4, 5, 0, 2]) (-1) 1,
    -- 1118: l2new.abab += np.transpose(tmp183, (2, 3, 0, 1))
    .add 267 (.tr 197 [2, 3, 0, 1]) 1 1,
    -- 1119: del tmp183
    .del 197,
    -- 1120: l2new.abab += np.transpose(tmp184, (2, 3, 0, 1))
    .add 267 (.tr 202 [2, 3, 0, 1]) 1 1,
    -- 1121: del tmp184
    .del 202,
    -- 1122: l2new.abab += einsum(tmp87, (0, 1), l2.abab, (0, 2, 3, 4), (1, 2, 3, 4))
    .add 267 (.ein [(196, [0, 1]), (9, [0, 2, 3, 4])] [1, 2, 3, 4]) 1 1,
    -- 1123: l2new.abab += einsum(tmp152, (0, 1), tmp38, (2, 0, 3, 4), (1, 4, 2, 3)) * -1
    .add 267 (.ein [(74, [0, 1]), (84, [2, 0, 3, 4])] [1, 4, 2, 3]) (-1) 1,
    -- 1124: del tmp152
    .del 74,
    -- 1125: l2new.abab += einsum(tmp48, (0, 1, 2, 3), v.aabb.vvov, (4, 3, 2, 5), (4, 5, 0, 1)) * -1
    .add 267 (.ein [(60, [0, 1, 2, 3]), (17, [4, 3, 2, 5])] [4, 5, 0, 1]) (-1) 1,
    -- 1126: l2new.abab += einsum(l2.abab, (0, 1, 2, 3), tmp185, (1, 4), (0, 4, 2, 3))
    .add 267 (.ein [(9, [0, 1, 2, 3]), (198, [1, 4])] [0, 4, 2, 3]) 1 1,
    -- 1127: del tmp185
    .del 198,
    -- 1128: l2new.abab += einsum(tmp188, (0, 1), tmp48, (2, 3, 0, 4), (4, 1, 2, 3)) * -1
    .add 267 (.ein [(98, [0, 1]), (60, [2, 3, 0, 4])] [4, 1, 2, 3]) (-1) 1,
    -- 1129: del tmp188
    .del 98,
    -- 1130: l2new.abab += einsum(tmp189, (0, 1, 2, 3), l1.aa, (4, 0), (4, 3, 1, 2)) * -1
    .add 267 (.ein [(204, [0, 1, 2, 3]), (12, [4, 0])] [4, 3, 1, 2]) (-1) 1,
    -- 1131: l2new.abab += einsum(l2.abab, (0, 1, 2, 3), tmp190, (2, 4, 3, 5), (0, 1, 4, 5))
    .add 267 (.ein [(9, [0, 1, 2, 3]), (203, [2, 4, 3, 5])] [0, 1, 4, 5]) 1 1,
    -- 1132: del tmp190
    .del 203,
    -- 1133: l2new.abab += einsum(l2.abab, (0, 1, 2, 3), tmp191, (2, 4, 1, 5), (0, 5, 4, 3)) * -1
    .add 267 (.ein [(9, [0, 1, 2, 3]), (200, [2, 4, 1, 5])] [0, 5, 4, 3]) (-1) 1,
    -- 1134: del tmp191
    .del 200,
    -- 1135: l2new.abab += einsum(v.aabb.ovov, (0, 1, 2, 3), tmp40, (4, 0), (1, 3, 4, 2)) * -1
    .add 267 (.ein [(2, [0, 1, 2, 3]), (58, [4, 0])] [1, 3, 4, 2]) (-1) 1,
    -- 1136: del tmp40
    .del 58,
    -- 1137: l2new.abab += einsum(tmp14, (0, 1, 2, 3), tmp38, (4, 0, 1, 5), (3, 5, 4, 2))
    .add 267 (.ein [(61, [0, 1, 2, 3]), (84, [4, 0, 1, 5])] [3, 5, 4, 2]) 1 1,
    -- 1138: del tmp14
    .del 61,
    -- 1139: l2new.abab += einsum(tmp52, (0, 1), v.aabb.ovov, (2, 3, 1, 4), (3, 4, 2, 0)) * -1
    .add 267 (.ein [(53, [0, 1]), (2, [2, 3, 1, 4])] [3, 4, 2, 0]) (-1) 1,
    -- 1140: del tmp52
    .del 53,
    -- 1141: l2new.abab += einsum(tmp189, (0, 1, 2, 3), tmp48, (0, 4, 2, 5), (5, 3, 1, 4))
    .add 267 (.ein [(204, [0, 1, 2, 3]), (60, [0, 4, 2, 5])] [5, 3, 1, 4]) 1 1,
    -- 1142: del tmp189
    .del 204,
    -- 1143: l2new.abab += einsum(v.aaaa.ooov, (0, 1, 2, 3), tmp38, (1, 2, 4, 5), (3, 5, 0, 4))
    .add 267 (.ein [(21, [0, 1, 2, 3]), (84, [1, 2, 4, 5])] [3, 5, 0, 4]) 1 1,
    -- 1144: l2new.abab += einsum(tmp168, (0, 1), l1.bb, (2, 3), (1, 2, 0, 3)) * -1
    .add 267 (.ein [(192, [0, 1]), (7, [2, 3])] [1, 2, 0, 3]) (-1) 1,
    -- 1145: l2new.abab += einsum(tmp38, (0, 1, 2, 3), tmp0, (0, 1, 4, 5), (5, 3, 4, 2))
    .add 267 (.ein [(84, [0, 1, 2, 3]), (62, [0, 1, 4, 5])] [5, 3, 4, 2]) 1 1,
    -- 1146: del tmp0
    .del 62,
    -- 1147: l2new.abab += einsum(v.bbbb.ooov, (0, 1, 2, 3), tmp48, (4, 1, 2, 5), (5, 3, 4, 0))
    .add 267 (.ein [(18, [0, 1, 2, 3]), (60, [4, 1, 2, 5])] [5, 3, 4, 0]) 1 1,
    -- 1148: l2new.abab += einsum(l1.aa, (0, 1), tmp192, (2, 3), (0, 3, 1, 2)) * -1
    .add 267 (.ein [(12, [0, 1]), (191, [2, 3])] [0, 3, 1, 2]) (-1) 1,
    -- 1149: del tmp192
    .del 191,
    -- 1150: l2new.abab += einsum(tmp48, (0, 1, 2, 3), tmp89, (1, 2, 4, 5), (3, 5, 0, 4))
    .add 267 (.ein [(60, [0, 1, 2, 3]), (56, [1, 2, 4, 5])] [3, 5, 0, 4]) 1 1,
    -- 1151: del tmp89
    .del 56,
    -- 1152: l2new.aaaa = np.copy(np.transpose(v.aaaa.ovov, (1, 3, 0, 2)))
    .set 268 (.tr 1 [1, 3, 0, 2]) 1 1,
    -- 1153: l2new.aaaa += einsum(tmp130, (0, 1, 2, 3), l1.aa, (4, 0), (3, 4, 2, 1)) * -1
    .add 268 (.ein [(209, [0, 1, 2, 3]), (12, [4, 0])] [3, 4, 2, 1]) (-1) 1,
    -- 1154: del tmp130
    .del 209,
    -- 1155: l2new.aaaa += np.transpose(v.aaaa.ovov, (3, 1, 0, 2)) * -1
    .add 268 (.tr 1 [3, 1, 0, 2]) (-1) 1,
    -- 1156: l2new.aaaa += np.transpose(tmp132, (3, 2, 0, 1))
    .add 268 (.tr 224 [3, 2, 0, 1]) 1 1,
    -- 1157: l2new.aaaa += np.transpose(tmp133, (3, 2, 0, 1)) * 2
    .add 268 (.tr 220 [3, 2, 0, 1]) 2 1,
    -- 1158: l2new.aaaa += np.transpose(tmp134, (3, 2, 0, 1))
    .add 268 (.tr 215 [3, 2, 0, 1]) 1 1,
    -- 1159: l2new.aaaa += np.transpose(tmp135, (3, 2, 0, 1))
    .add 268 (.tr 211 [3, 2, 0, 1]) 1 1,
    -- 1160: l2new.aaaa += np.transpose(tmp136, (2, 3, 0, 1)) * -1
    .add 268 (.tr 213 [2, 3, 0, 1]) (-1) 1,
    -- 1161: l2new.aaaa += np.transpose(tmp137, (3, 2, 0, 1)) * 2
    .add 268 (.tr 223 [3, 2, 0, 1]) 2 1,
    -- 1162: l2new.aaaa += einsum(tmp138, (0, 1, 2, 3), l2.aaaa, (4, 3, 5, 0), (2, 4, 5, 1)) * -2
    .add 268 (.ein [(212, [0, 1, 2, 3]), (13, [4, 3, 5, 0])] [2, 4, 5, 1]) (-2) 1,
    -- 1163: del tmp138
    .del 212,
    -- 1164: l2new.aaaa += einsum(tmp11, (0, 1, 2, 3), l2.abab, (4, 3, 5, 1), (2, 4, 5, 0)) * -1
    .add 268 (.ein [(157, [0, 1, 2, 3]), (9, [4, 3, 5, 1])] [2, 4, 5, 0]) (-1) 1,
    -- 1165: del tmp11
    .del 157,
    -- 1166: l2new.aaaa += einsum(l2.aaaa, (0, 1, 2, 3), tmp139, (3, 4), (0, 1, 2, 4)) * -2
    .add 268 (.ein [(13, [0, 1, 2, 3]), (208, [3, 4])] [0, 1, 2, 4]) (-2) 1,
    -- 1167: del tmp139
    .del 208,
    -- 1168: l2new.aaaa += einsum(tmp141, (0, 1), l1.aa, (2, 3), (1, 2, 3, 0)) * -1
    .add 268 (.ein [(226, [0, 1]), (12, [2, 3])] [1, 2, 3, 0]) (-1) 1,
    -- 1169: del tmp141
    .del 226,
    -- 1170: l2new.aaaa += np.transpose(tmp133, (3, 2, 1, 0)) * -2
    .add 268 (.tr 220 [3, 2, 1, 0]) (-2) 1,
    -- 1171: l2new.aaaa += np.transpose(tmp134, (3, 2, 1, 0)) * -1
    .add 268 (.tr 215 [3, 2, 1, 0]) (-1) 1,
    -- 1172: l2new.aaaa += np.transpose(tmp135, (3, 2, 1, 0)) * -1
    .add 268 (.tr 211 [3, 2, 1, 0]) (-1) 1,
    -- 1173: l2new.aaaa += np.transpose(tmp136, (2, 3, 1, 0))
    .add 268 (.tr 213 [2, 3, 1, 0]) 1 1,
    -- 1174: l2new.aaaa += np.transpose(tmp137, (3, 2, 1, 0)) * -2
    .add 268 (.tr 223 [3, 2, 1, 0]) (-2) 1,
    -- 1175: l2new.aaaa += np.transpose(tmp145, (2, 3, 0, 1)) * 2
    .add 268 (.tr 206 [2, 3, 0, 1]) 2 1,
    -- 1176: l2new.aaaa += np.transpose(tmp147, (2, 3, 0, 1))
    .add 268 (.tr 207 [2, 3, 0, 1]) 1 1,
    -- 1177: l2new.aaaa += einsum(tmp154, (0, 1), l2.aaaa, (2, 3, 4, 0), (2, 3, 1, 4)) * 2
    .add 268 (.ein [(201, [0, 1]), (13, [2, 3, 4, 0])] [2, 3, 1, 4]) 2 1,
    -- 1178: del tmp154
    .del 201,
    -- 1179: l2new.aaaa += einsum(l1.aa, (0, 1), tmp155, (2, 3), (3, 0, 2, 1))
    .add 268 (.ein [(12, [0, 1]), (195, [2, 3])] [3, 0, 2, 1]) 1 1,
    -- 1180: l2new.aaaa += np.transpose(tmp134, (2, 3, 0, 1)) * -1
    .add 268 (.tr 215 [2, 3, 0, 1]) (-1) 1,
    -- 1181: l2new.aaaa += np.transpose(tmp133, (2, 3, 0, 1)) * -2
    .add 268 (.tr 220 [2, 3, 0, 1]) (-2) 1,
    -- 1182: l2new.aaaa += np.transpose(tmp135, (2, 3, 0, 1)) * -1
    .add 268 (.tr 211 [2, 3, 0, 1]) (-1) 1,
    -- 1183: l2new.aaaa += np.transpose(tmp136, (3, 2, 0, 1))
    .add 268 (.tr 213 [3, 2, 0, 1]) 1 1,
    -- 1184: l2new.aaaa += np.transpose(tmp137, (2, 3, 0, 1)) * -2
    .add 268 (.tr 223 [2, 3, 0, 1]) (-2) 1,
    -- 1185: l2new.aaaa += np.transpose(tmp145, (3, 2, 1, 0)) * 2
    .add 268 (.tr 206 [3, 2, 1, 0]) 2 1,
    -- 1186: l2new.aaaa += np.transpose(tmp147, (3, 2, 1, 0))
    .add 268 (.tr 207 [3, 2, 1, 0]) 1 1,
    -- 1187: l2new.aaaa += einsum(tmp155, (0, 1), l1.aa, (2, 3), (2, 1, 3, 0))
    .add 268 (.ein [(195, [0, 1]), (12, [2, 3])] [2, 1, 3, 0]) 1 1,
    -- 1188: l2new.aaaa += np.transpose(tmp134, (2, 3, 1, 0))
    .add 268 (.tr 215 [2, 3, 1, 0]) 1 1,
    -- 1189: del tmp134
    .del 215,
    -- 1190: l2new.aaaa += np.transpose(tmp133, (2, 3, 1, 0)) * 2
    .add 268 (.tr 220 [2, 3, 1, 0]) 2 1,
    -- 1191: del tmp133
    .del 220,
    -- 1192: l2new.aaaa += np.transpose(tmp135, (2, 3, 1, 0))
    .add 268 (.tr 211 [2, 3, 1, 0]) 1 1,
    -- 1193: del tmp135
    .del 211,
    -- 1194: l2new.aaaa += np.transpose(tmp136, (3, 2, 1, 0)) * -1
    .add 268 (.tr 213 [3, 2, 1, 0]) (-1) 1,
    -- 1195: del tmp136
    .del 213,
    -- 1196: l2new.aaaa += np.transpose(tmp137, (2, 3, 1, 0)) * 2
    .add 268 (.tr 223 [2, 3, 1, 0]) 2 1,
    -- 1197: del tmp137
    .del 223,
    -- 1198: l2new.aaaa += np.transpose(tmp145, (3, 2, 0, 1)) * -2
    .add 268 (.tr 206 [3, 2, 0, 1]) (-2) 1,
    -- 1199: del tmp145
    .del 206,
    -- 1200: l2new.aaaa += np.transpose(tmp147, (3, 2, 0, 1)) * -1
    .add 268 (.tr 207 [3, 2, 0, 1]) (-1) 1,
    -- 1201: del tmp147
    .del 207,
    -- 1202: l2new.aaaa += einsum(l1.aa, (0, 1), tmp155, (2, 3), (0, 3, 2, 1)) * -1
    .add 268 (.ein [(12, [0, 1]), (195, [2, 3])] [0, 3, 2, 1]) (-1) 1,
    -- 1203: del tmp155
    .del 195,
    -- 1204: l2new.aaaa += np.transpose(tmp156, (3, 2, 1, 0)) * 2
    .add 268 (.tr 227 [3, 2, 1, 0]) 2 1,
    -- 1205: del tmp156
    .del 227,
    -- 1206: l2new.aaaa += np.transpose(tmp157, (2, 3, 1, 0)) * 2
    .add 268 (.tr 219 [2, 3, 1, 0]) 2 1,
    -- 1207: l2new.aaaa += np.transpose(tmp158, (3, 2, 1, 0)) * 2
    .add 268 (.tr 218 [3, 2, 1, 0]) 2 1,
    -- 1208: del tmp158
    .del 218,
    -- 1209: l2new.aaaa += einsum(tmp159, (0, 1), l2.aaaa, (2, 1, 3, 4), (0, 2, 3, 4)) * -1
    .add 268 (.ein [(217, [0, 1]), (13, [2, 1, 3, 4])] [0, 2, 3, 4]) (-1) 1,
    -- 1210: del tmp159
    .del 217,
    -- 1211: l2new.aaaa += np.transpose(tmp160, (2, 3, 1, 0)) * -2
    .add 268 (.tr 228 [2, 3, 1, 0]) (-2) 1,
    -- 1212: l2new.aaaa += np.transpose(tmp164, (2, 3, 1, 0)) * -1
    .add 268 (.tr 205 [2, 3, 1, 0]) (-1) 1,
    -- 1213: l2new.aaaa += np.transpose(tmp157, (3, 2, 1, 0)) * -2
    .add 268 (.tr 219 [3, 2, 1, 0]) (-2) 1,
    -- 1214: del tmp157
    .del 219,
    -- 1215: l2new.aaaa += np.transpose(tmp164, (3, 2, 1, 0)) * 2
    .add 268 (.tr 205 [3, 2, 1, 0]) 2 1,
    -- 1216: del tmp164
    .del 205,
    -- 1217: l2new.aaaa += np.transpose(tmp160, (3, 2, 1, 0)) * 2
    .add 268 (.tr 228 [3, 2, 1, 0]) 2 1,
    -- 1218: del tmp160
    .del 228,
    -- 1219: l2new.aaaa += np.transpose(tmp165, (2, 3, 0, 1)) * -2
    .add 268 (.tr 222 [2, 3, 0, 1]) (-2) 1,
    -- 1220: l2new.aaaa += np.transpose(tmp165, (2, 3, 1, 0)) * 2
    .add 268 (.tr 222 [2, 3, 1, 0]) 2 1,
    -- 1221: del tmp165
    .del 222,
    -- 1222: l2new.aaaa += einsum(l2.aaaa, (0, 1, 2, 3), tmp166, (2, 4, 3, 5), (0, 1, 4, 5)) * 2
    .add 268 (.ein [(13, [0, 1, 2, 3]), (210, [2, 4, 3, 5])] [0, 1, 4, 5]) 2 1,
    -- 1223: del tmp166
    .del 210,
    -- 1224: l2new.aaaa += einsum(tmp167, (0, 1, 2, 3), l1.aa, (4, 0), (3, 4, 1, 2))
    .add 268 (.ein [(216, [0, 1, 2, 3]), (12, [4, 0])] [3, 4, 1, 2]) 1 1,
    -- 1225: del tmp167
    .del 216,
    -- 1226: l2new.aaaa += np.transpose(tmp132, (3, 2, 1, 0)) * -1
    .add 268 (.tr 224 [3, 2, 1, 0]) (-1) 1,
    -- 1227: del tmp132
    .del 224,
    -- 1228: l2new.aaaa += einsum(tmp168, (0, 1), l1.aa, (2, 3), (1, 2, 3, 0))
    .add 268 (.ein [(192, [0, 1]), (12, [2, 3])] [1, 2, 3, 0]) 1 1,
    -- 1229: l2new.aaaa += np.transpose(tmp169, (3, 2, 0, 1)) * -1
    .add 268 (.tr 214 [3, 2, 0, 1]) (-1) 1,
    -- 1230: l2new.aaaa += np.transpose(tmp170, (3, 2, 0, 1)) * -2
    .add 268 (.tr 221 [3, 2, 0, 1]) (-2) 1,
    -- 1231: l2new.aaaa += np.transpose(tmp171, (3, 2, 0, 1)) * -2
    .add 268 (.tr 225 [3, 2, 0, 1]) (-2) 1,
    -- 1232: l2new.aaaa += np.transpose(tmp169, (2, 3, 0, 1))
    .add 268 (.tr 214 [2, 3, 0, 1]) 1 1,
    -- 1233: l2new.aaaa += einsum(tmp168, (0, 1), l1.aa, (2, 3), (2, 1, 3, 0)) * -1
    .add 268 (.ein [(192, [0, 1]), (12, [2, 3])] [2, 1, 3, 0]) (-1) 1,
    -- 1234: l2new.aaaa += np.transpose(tmp170, (2, 3, 0, 1)) * 2
    .add 268 (.tr 221 [2, 3, 0, 1]) 2 1,
    -- 1235: l2new.aaaa += np.transpose(tmp171, (2, 3, 0, 1)) * 2
    .add 268 (.tr 225 [2, 3, 0, 1]) 2 1,
    -- 1236: l2new.aaaa += np.transpose(tmp169, (3, 2, 1, 0))
    .add 268 (.tr 214 [3, 2, 1, 0]) 1 1,
    -- 1237: l2new.aaaa += einsum(tmp168, (0, 1), l1.aa, (2, 3), (1, 2, 0, 3)) * -1
    .add 268 (.ein [(192, [0, 1]), (12, [2, 3])] [1, 2, 0, 3]) (-1) 1,
    -- 1238: l2new.aaaa += np.transpose(tmp170, (3, 2, 1, 0)) * 2
    .add 268 (.tr 221 [3, 2, 1, 0]) 2 1,
    -- 1239: l2new.aaaa += np.transpose(tmp171, (3, 2, 1, 0)) * 2
    .add 268 (.tr 225 [3, 2, 1, 0]) 2 1,
    -- 1240: l2new.aaaa += einsum(l1.aa, (0, 1), tmp168, (2, 3), (0, 3, 2, 1))
    .add 268 (.ein [(12, [0, 1]), (192, [2, 3])] [0, 3, 2, 1]) 1 1,
    -- 1241: del tmp168
    .del 192,
    -- 1242: l2new.aaaa += np.transpose(tmp169, (2, 3, 1, 0)) * -1
    .add 268 (.tr 214 [2, 3, 1, 0]) (-1) 1,
    -- 1243: del tmp169
    .del 214,
    -- 1244: l2new.aaaa += np.transpose(tmp170, (2, 3, 1, 0)) * -2
    .add 268 (.tr 221 [2, 3, 1, 0]) (-2) 1,
    -- 1245: del tmp170
    .del 221,
    -- 1246: l2new.aaaa += np.transpose(tmp171, (2, 3, 1, 0)) * -2
    .add 268 (.tr 225 [2, 3, 1, 0]) (-2) 1,
    -- 1247: del tmp171
    .del 225,
    -- 1248: l1new.bb = np.copy(np.transpose(f.bb.ov, (1, 0)))
    .set 269 (.tr 20 [1, 0]) 1 1,
    -- 1249: l1new.bb += einsum(l1.bb, (0, 1), v.bbbb.oovv, (2, 1, 3, 0), (3, 2)) * -1
    .add 269 (.ein [(7, [0, 1]), (25, [2, 1, 3, 0])] [3, 2]) (-1) 1,
    -- 1250: l1new.bb += einsum(l2.abab, (0, 1, 2, 3), tmp97, (2, 3, 4, 0), (1, 4)) * -1
    .add 269 (.ein [(9, [0, 1, 2, 3]), (250, [2, 3, 4, 0])] [1, 4]) (-1) 1,
    -- 1251: del tmp97
    .del 250,
    -- 1252: l1new.bb += einsum(l2.bbbb, (0, 1, 2, 3), tmp103, (4, 2, 3, 1), (0, 4)) * 2
    .add 269 (.ein [(11, [0, 1, 2, 3]), (239, [4, 2, 3, 1])] [0, 4]) 2 1,
    -- 1253: del tmp103
    .del 239,
    -- 1254: l1new.bb += einsum(tmp104, (0, 1, 2, 3), tmp33, (2, 1), (3, 0)) * -1
    .add 269 (.ein [(102, [0, 1, 2, 3]), (230, [2, 1])] [3, 0]) (-1) 1,
    -- 1255: del tmp104
    .del 102,
    -- 1256: l1new.bb += einsum(v.aabb.vvov, (0, 1, 2, 3), tmp28, (0, 1), (3, 2))
    .add 269 (.ein [(17, [0, 1, 2, 3]), (241, [0, 1])] [3, 2]) 1 1,
    -- 1257: l1new.bb += einsum(tmp45, (0, 1), v.aabb.ovov, (0, 1, 2, 3), (3, 2)) * -1
    .add 269 (.ein [(242, [0, 1]), (2, [0, 1, 2, 3])] [3, 2]) (-1) 1,
    -- 1258: l1new.bb += einsum(v.bbbb.ovov, (0, 1, 2, 3), tmp57, (2, 3), (1, 0)) * -1
    .add 269 (.ein [(0, [0, 1, 2, 3]), (249, [2, 3])] [1, 0]) (-1) 1,
    -- 1259: l1new.bb += einsum(tmp55, (0, 1), v.bbbb.ovoo, (2, 3, 0, 1), (3, 2)) * -1
    .add 269 (.ein [(81, [0, 1]), (19, [2, 3, 0, 1])] [3, 2]) (-1) 1,
    -- 1260: l1new.bb += einsum(v.aabb.ooov, (0, 1, 2, 3), tmp88, (1, 0), (3, 2)) * -1
    .add 269 (.ein [(24, [0, 1, 2, 3]), (231, [1, 0])] [3, 2]) (-1) 1,
    -- 1261: l1new.bb += einsum(l1.bb, (0, 1), tmp107, (1, 2), (0, 2)) * -2
    .add 269 (.ein [(7, [0, 1]), (247, [1, 2])] [0, 2]) (-2) 1,
    -- 1262: del tmp107
    .del 247,
    -- 1263: l1new.bb += einsum(v.bbbb.oovv, (0, 1, 2, 3), tmp50, (4, 1, 0, 3), (2, 4)) * -2
    .add 269 (.ein [(25, [0, 1, 2, 3]), (66, [4, 1, 0, 3])] [2, 4]) (-2) 1,
    -- 1264: l1new.bb += einsum(tmp108, (0, 1, 2, 3), l2.bbbb, (3, 2, 4, 0), (1, 4)) * -2
    .add 269 (.ein [(233, [0, 1, 2, 3]), (11, [3, 2, 4, 0])] [1, 4]) (-2) 1,
    -- 1265: del tmp108
    .del 233,
    -- 1266: l1new.bb += einsum(v.aabb.oovv, (0, 1, 2, 3), tmp38, (1, 0, 4, 3), (2, 4)) * -1
    .add 269 (.ein [(35, [0, 1, 2, 3]), (84, [1, 0, 4, 3])] [2, 4]) (-1) 1,
    -- 1267: del tmp38
    .del 84,
    -- 1268: l1new.bb += einsum(l2.abab, (0, 1, 2, 3), tmp109, (2, 0, 4, 1), (4, 3))
    .add 269 (.ein [(9, [0, 1, 2, 3]), (229, [2, 0, 4, 1])] [4, 3]) 1 1,
    -- 1269: del tmp109
    .del 229,
    -- 1270: l1new.bb += einsum(tmp110, (0, 1, 2, 3), tmp50, (4, 0, 1, 3), (2, 4)) * -2
    .add 269 (.ein [(234, [0, 1, 2, 3]), (66, [4, 0, 1, 3])] [2, 4]) (-2) 1,
    -- 1271: del tmp50, tmp110
    .del 66,
    .del 234,
    -- 1272: l1new.bb += einsum(tmp111, (0, 1, 2, 3), v.aabb.ovvv, (0, 2, 4, 3), (4, 1)) * 2
    .add 269 (.ein [(238, [0, 1, 2, 3]), (16, [0, 2, 4, 3])] [4, 1]) 2 1,
    -- 1273: del tmp111
    .del 238,
    -- 1274: l1new.bb += einsum(tmp114, (0, 1, 2, 3), v.bbbb.ovvv, (1, 3, 4, 2), (4, 0)) * 2
    .add 269 (.ein [(245, [0, 1, 2, 3]), (4, [1, 3, 4, 2])] [4, 0]) 2 1,
    -- 1275: del tmp114
    .del 245,
    -- 1276: l1new.bb += einsum(tmp115, (0, 1, 2, 3), v.bbbb.ovvv, (1, 4, 3, 2), (4, 0)) * -1
    .add 269 (.ein [(236, [0, 1, 2, 3]), (4, [1, 4, 3, 2])] [4, 0]) (-1) 1,
    -- 1277: del tmp115
    .del 236,
    -- 1278: l1new.bb += einsum(tmp116, (0, 1, 2, 3), v.aabb.ovov, (0, 3, 2, 4), (4, 1)) * -1
    .add 269 (.ein [(246, [0, 1, 2, 3]), (2, [0, 3, 2, 4])] [4, 1]) (-1) 1,
    -- 1279: del tmp116
    .del 246,
    -- 1280: l1new.bb += einsum(tmp117, (0, 1, 2, 3), v.aabb.vvov, (3, 2, 1, 4), (4, 0)) * -1
    .add 269 (.ein [(237, [0, 1, 2, 3]), (17, [3, 2, 1, 4])] [4, 0]) (-1) 1,
    -- 1281: del tmp117
    .del 237,
    -- 1282: l1new.bb += einsum(tmp121, (0, 1, 2, 3), v.bbbb.ovov, (1, 3, 2, 4), (4, 0)) * -2
    .add 269 (.ein [(240, [0, 1, 2, 3]), (0, [1, 3, 2, 4])] [4, 0]) (-2) 1,
    -- 1283: del tmp121
    .del 240,
    -- 1284: l1new.bb += einsum(v.bbbb.ovov, (0, 1, 2, 3), tmp123, (4, 2, 0, 3), (1, 4))
    .add 269 (.ein [(0, [0, 1, 2, 3]), (248, [4, 2, 0, 3])] [1, 4]) 1 1,
    -- 1285: del tmp123
    .del 248,
    -- 1286: l1new.bb += einsum(v.aabb.ooov, (0, 1, 2, 3), tmp124, (1, 0, 4, 2), (3, 4))
    .add 269 (.ein [(24, [0, 1, 2, 3]), (244, [1, 0, 4, 2])] [3, 4]) 1 1,
    -- 1287: del tmp124
    .del 244,
    -- 1288: l1new.bb += einsum(v.bbbb.ooov, (0, 1, 2, 3), tmp125, (1, 4, 0, 2), (3, 4)) * 2
    .add 269 (.ein [(18, [0, 1, 2, 3]), (243, [1, 4, 0, 2])] [3, 4]) 2 1,
    -- 1289: del tmp125
    .del 243,
    -- 1290: l1new.bb += einsum(tmp126, (0, 1), v.bbbb.ovov, (2, 1, 0, 3), (3, 2))
    .add 269 (.ein [(232, [0, 1]), (0, [2, 1, 0, 3])] [3, 2]) 1 1,
    -- 1291: del tmp126
    .del 232,
    -- 1292: l1new.bb += einsum(tmp55, (0, 1), v.bbbb.ooov, (2, 0, 1, 3), (3, 2))
    .add 269 (.ein [(81, [0, 1]), (18, [2, 0, 1, 3])] [3, 2]) 1 1,
    -- 1293: l1new.bb += einsum(tmp129, (0, 1), l1.bb, (0, 2), (1, 2))
    .add 269 (.ein [(235, [0, 1]), (7, [0, 2])] [1, 2]) 1 1,
    -- 1294: del tmp129
    .del 235,
    -- 1295: l1new.bb += einsum(tmp94, (0, 1), tmp55, (2, 0), (1, 2)) * -1
    .add 269 (.ein [(71, [0, 1]), (81, [2, 0])] [1, 2]) (-1) 1,
    -- 1296: del tmp94, tmp55
    .del 71,
    .del 81,
    -- 1297: l1new.aa = einsum(v.aaaa.oovv, (0, 1, 2, 3), l1.aa, (3, 1), (2, 0)) * -1
    .set 270 (.ein [(28, [0, 1, 2, 3]), (12, [3, 1])] [2, 0]) (-1) 1,
    -- 1298: l1new.aa += np.transpose(f.aa.ov, (1, 0))
    .add 270 (.tr 23 [1, 0]) 1 1,
    -- 1299: l1new.aa += einsum(tmp17, (0, 1, 2, 3), l2.abab, (4, 3, 0, 2), (4, 1)) * -1
    .add 270 (.ein [(256, [0, 1, 2, 3]), (9, [4, 3, 0, 2])] [4, 1]) (-1) 1,
    -- 1300: del tmp17
    .del 256,
    -- 1301: l1new.aa += einsum(tmp24, (0, 1, 2, 3), l2.aaaa, (4, 3, 1, 2), (4, 0)) * 2
    .add 270 (.ein [(257, [0, 1, 2, 3]), (13, [4, 3, 1, 2])] [4, 0]) 2 1,
    -- 1302: del tmp24
    .del 257,
    -- 1303: l1new.aa += einsum(tmp28, (0, 1), tmp29, (2, 3, 1, 0), (3, 2)) * -1
    .add 270 (.ein [(241, [0, 1]), (110, [2, 3, 1, 0])] [3, 2]) (-1) 1,
    -- 1304: del tmp29, tmp28
    .del 110,
    .del 241,
    -- 1305: l1new.aa += einsum(v.aabb.ovvv, (0, 1, 2, 3), tmp33, (3, 2), (1, 0))
    .add 270 (.ein [(16, [0, 1, 2, 3]), (230, [3, 2])] [1, 0]) 1 1,
    -- 1306: del tmp33
    .del 230,
    -- 1307: l1new.aa += einsum(tmp45, (0, 1), v.aaaa.ovov, (2, 3, 0, 1), (3, 2)) * -1
    .add 270 (.ein [(242, [0, 1]), (1, [2, 3, 0, 1])] [3, 2]) (-1) 1,
    -- 1308: del tmp45
    .del 242,
    -- 1309: l1new.aa += einsum(tmp57, (0, 1), v.aabb.ovov, (2, 3, 0, 1), (3, 2)) * -1
    .add 270 (.ein [(249, [0, 1]), (2, [2, 3, 0, 1])] [3, 2]) (-1) 1,
    -- 1310: del tmp57
    .del 249,
    -- 1311: l1new.aa += einsum(tmp43, (0, 1), v.aaaa.ovoo, (2, 3, 1, 0), (3, 2)) * -2
    .add 270 (.ein [(85, [0, 1]), (22, [2, 3, 1, 0])] [3, 2]) (-2) 1,
    -- 1312: l1new.aa += einsum(tmp58, (0, 1), v.aabb.ovoo, (2, 3, 1, 0), (3, 2)) * -2
    .add 270 (.ein [(259, [0, 1]), (15, [2, 3, 1, 0])] [3, 2]) (-2) 1,
    -- 1313: del tmp58
    .del 259,
    -- 1314: l1new.aa += einsum(l1.aa, (0, 1), tmp63, (1, 2), (0, 2)) * -1
    .add 270 (.ein [(12, [0, 1]), (253, [1, 2])] [0, 2]) (-1) 1,
    -- 1315: del tmp63
    .del 253,
    -- 1316: l1new.aa += einsum(tmp64, (0, 1, 2, 3), l2.abab, (2, 3, 4, 0), (1, 4))
    .add 270 (.ein [(258, [0, 1, 2, 3]), (9, [2, 3, 4, 0])] [1, 4]) 1 1,
    -- 1317: del tmp64
    .del 258,
    -- 1318: l1new.aa += einsum(tmp48, (0, 1, 2, 3), v.aabb.vvoo, (4, 3, 2, 1), (4, 0)) * -1
    .add 270 (.ein [(60, [0, 1, 2, 3]), (31, [4, 3, 2, 1])] [4, 0]) (-1) 1,
    -- 1319: del tmp48
    .del 60,
    -- 1320: l1new.aa += einsum(v.aaaa.oovv, (0, 1, 2, 3), tmp36, (4, 1, 0, 3), (2, 4)) * -2
    .add 270 (.ein [(28, [0, 1, 2, 3]), (63, [4, 1, 0, 3])] [2, 4]) (-2) 1,
    -- 1321: del tmp36
    .del 63,
    -- 1322: l1new.aa += einsum(tmp65, (0, 1, 2, 3), v.aaaa.ooov, (1, 3, 2, 4), (4, 0)) * 2
    .add 270 (.ein [(96, [0, 1, 2, 3]), (21, [1, 3, 2, 4])] [4, 0]) 2 1,
    -- 1323: del tmp65
    .del 96,
    -- 1324: l1new.aa += einsum(v.aaaa.ooov, (0, 1, 2, 3), tmp66, (4, 1, 0, 2), (3, 4)) * -2
    .add 270 (.ein [(21, [0, 1, 2, 3]), (95, [4, 1, 0, 2])] [3, 4]) (-2) 1,
    -- 1325: del tmp66
    .del 95,
    -- 1326: l1new.aa += einsum(tmp67, (0, 1, 2, 3), v.aabb.vvov, (4, 2, 1, 3), (4, 0)) * 2
    .add 270 (.ein [(265, [0, 1, 2, 3]), (17, [4, 2, 1, 3])] [4, 0]) 2 1,
    -- 1327: del tmp67
    .del 265,
    -- 1328: l1new.aa += einsum(tmp69, (0, 1, 2, 3), tmp68, (1, 3, 2, 4), (4, 0))
    .add 270 (.ein [(261, [0, 1, 2, 3]), (123, [1, 3, 2, 4])] [4, 0]) 1 1,
    -- 1329: del tmp69
    .del 261,
    -- 1330: l1new.aa += einsum(v.aabb.ovov, (0, 1, 2, 3), tmp73, (4, 0, 2, 3), (1, 4)) * -1
    .add 270 (.ein [(2, [0, 1, 2, 3]), (255, [4, 0, 2, 3])] [1, 4]) (-1) 1,
    -- 1331: del tmp73
    .del 255,
    -- 1332: l1new.aa += einsum(tmp77, (0, 1, 2, 3), v.aaaa.ovov, (1, 3, 2, 4), (4, 0)) * -2
    .add 270 (.ein [(264, [0, 1, 2, 3]), (1, [1, 3, 2, 4])] [4, 0]) (-2) 1,
    -- 1333: del tmp77
    .del 264,
    -- 1334: l1new.aa += einsum(tmp78, (0, 1, 2, 3), v.aabb.ovvv, (1, 4, 3, 2), (4, 0)) * -1
    .add 270 (.ein [(260, [0, 1, 2, 3]), (16, [1, 4, 3, 2])] [4, 0]) (-1) 1,
    -- 1335: del tmp78
    .del 260,
    -- 1336: l1new.aa += einsum(tmp79, (0, 1, 2, 3), l2.aaaa, (1, 2, 4, 0), (3, 4)) * -2
    .add 270 (.ein [(263, [0, 1, 2, 3]), (13, [1, 2, 4, 0])] [3, 4]) (-2) 1,
    -- 1337: del tmp79
    .del 263,
    -- 1338: l1new.aa += einsum(tmp68, (0, 1, 2, 3), tmp80, (4, 0, 2, 1), (3, 4)) * -2
    .add 270 (.ein [(123, [0, 1, 2, 3]), (254, [4, 0, 2, 1])] [3, 4]) (-2) 1,
    -- 1339: del tmp68, tmp80
    .del 123,
    .del 254,
    -- 1340: l1new.aa += einsum(v.aaaa.ovov, (0, 1, 2, 3), tmp81, (4, 2, 0, 3), (1, 4))
    .add 270 (.ein [(1, [0, 1, 2, 3]), (251, [4, 2, 0, 3])] [1, 4]) 1 1,
    -- 1341: del tmp81
    .del 251,
    -- 1342: l1new.aa += einsum(v.aabb.ovoo, (0, 1, 2, 3), tmp82, (4, 0, 3, 2), (1, 4))
    .add 270 (.ein [(15, [0, 1, 2, 3]), (252, [4, 0, 3, 2])] [1, 4]) 1 1,
    -- 1343: del tmp82
    .del 252,
    -- 1344: l1new.aa += einsum(v.aaaa.ovov, (0, 1, 2, 3), tmp83, (2, 1), (3, 0)) * 2
    .add 270 (.ein [(1, [0, 1, 2, 3]), (262, [2, 1])] [3, 0]) 2 1,
    -- 1345: del tmp83
    .del 262,
    -- 1346: l1new.aa += einsum(v.aaaa.ooov, (0, 1, 2, 3), tmp43, (1, 2), (3, 0)) * 2
    .add 270 (.ein [(21, [0, 1, 2, 3]), (85, [1, 2])] [3, 0]) 2 1,
    -- 1347: del tmp43
    .del 85,
    -- 1348: l1new.aa += einsum(tmp87, (0, 1), l1.aa, (0, 2), (1, 2))
    .add 270 (.ein [(196, [0, 1]), (12, [0, 2])] [1, 2]) 1 1,
    -- 1349: del tmp87
    .del 196,
    -- 1350: l1new.aa += einsum(tmp88, (0, 1), tmp9, (1, 2), (2, 0)) * -1
    .add 270 (.ein [(231, [0, 1]), (79, [1, 2])] [2, 0]) (-1) 1,
    -- 1351: del tmp9, tmp88
    .del 79,
    .del 231
  ]
  ret := [(chars! "l1new.bb", 269), (chars! "l1new.aa", 270), (chars! "l2new.bbbb", 266), (chars! "l2new.abab", 267), (chars! "l2new.aaaa", 268)]

end Ebcc.Gen.UCC2
